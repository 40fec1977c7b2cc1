import Verif.Model.Trajectory

/-!
# Model of the evaluation of velocities and of registration covariances in Matlab

Sources: `plotting/compute_twist_data.m`, `plotting/extract_*_velocities.m`, `plotting/plot_normalised_covariance_scatter.m`. The simplifications of Model/Trajectory.lean
apply.
-/

namespace Serpent

namespace Trajectory

open EigenExt Matrix

/-! ### Velocities -/

/-- Linear and angular velocity of `geometry_msgs/Twist`. Read in extract_linear_velocities.m:1-8 and
extract_angular_velocities.m:1-8. -/
structure Velocity where
  linear : Fin 3 → ℝ
  angular : Fin 3 → ℝ

/-- `extract_linear_velocities` with the timestamps, extract_linear_velocities.m:1-8. -/
def linears (l : List (ℝ × Velocity)) : List (ℝ × (Fin 3 → ℝ)) := l.map fun e => (e.1, e.2.linear)

/-- `extract_angular_velocities` with the timestamps, extract_angular_velocities.m:1-8. -/
def angulars (l : List (ℝ × Velocity)) : List (ℝ × (Fin 3 → ℝ)) := l.map fun e => (e.1, e.2.angular)

/-- Errors, their norms and the root mean square of the norms. Made in compute_twist_data.m:51-74. -/
structure VectorReport where
  errors : List (Fin 3 → ℝ)
  norms : List ℝ
  rmse : ℝ

/-- compute_twist_data.m:51-55, 56-59, 65-68 and 69-73. -/
noncomputable def vectorReport (l : List (ℝ × (Fin 3 → ℝ))) : VectorReport :=
  ⟨l.map Prod.snd, l.map fun e => norm3 e.2, rms (l.map fun e => norm3 e.2)⟩

/-- What is computed for an odometry, compute_twist_data.m:31-74. The timestamps of the errors are those of the linear velocities. -/
structure TwistEntry where
  timestamps : List ℝ
  linearSpeeds : List ℝ
  angularSpeeds : List ℝ
  absoluteTimes : List ℝ
  relativeTimes : List ℝ
  linearAbsolute : VectorReport
  linearRelative : VectorReport
  angularAbsolute : VectorReport
  angularRelative : VectorReport

/-- One round of the loop of `compute_twist_data`, compute_twist_data.m:28-75. -/
noncomputable def twistEntry (gt odometry : List (ℝ × Velocity)) : Outcome TwistEntry :=
  withinBounds gt odometry >>= fun l =>
  vectorErrors (linears gt) (linears l) >>= fun v =>
  vectorErrors (angulars gt) (angulars l) >>= fun w =>
  .ok {
    timestamps := l.map Prod.fst
    linearSpeeds := l.map fun e => norm3 e.2.linear
    angularSpeeds := l.map fun e => norm3 e.2.angular
    absoluteTimes := v.absolute.map Prod.fst
    relativeTimes := v.relative.map Prod.fst
    linearAbsolute := vectorReport v.absolute
    linearRelative := vectorReport v.relative
    angularAbsolute := vectorReport w.absolute
    angularRelative := vectorReport w.relative }

/-- The rounds of the loop, compute_twist_data.m:28-76. -/
noncomputable def twistEntries (gt : List (ℝ × Velocity)) : List (List (ℝ × Velocity)) → Outcome (List TwistEntry)
  | [] => .ok []
  | o :: os => twistEntry gt o >>= fun e => twistEntries gt os >>= fun r => .ok (e :: r)

/-- `compute_twist_data`, compute_twist_data.m:1-77. -/
noncomputable def twistData (bounds : Option (ℝ × ℝ)) (gt : List (ℝ × Velocity)) (odometries : List (List (ℝ × Velocity))) :
    Outcome (List TwistEntry) :=
  boundReference bounds gt >>= fun gt => twistEntries gt odometries

/-! ### Errors compared with covariances -/

/-- `eig` of Matlab for a 3 x 3 matrix: the eigenvectors as columns and the eigenvalues. Used in
plot_normalised_covariance_scatter.m:32-35. -/
abbrev Eig := Matrix (Fin 3) (Fin 3) ℝ → Matrix (Fin 3) (Fin 3) ℝ × (Fin 3 → ℝ)

open Classical in
/-- `max(d, 0)` if there is a negative eigenvalue, plot_normalised_covariance_scatter.m:32-35. -/
noncomputable def clipped (d : Fin 3 → ℝ) (i : Fin 3) : ℝ := if ∃ j, d j < 0 then max (d i) 0 else d i

open Classical in
/-- plot_normalised_covariance_scatter.m:30-40. `none`: `inv` of a singular matrix is infinite, and the result is not a number. -/
noncomputable def normalisedError (eig : Eig) (C : Matrix (Fin 3) (Fin 3) ℝ) (e : Fin 3 → ℝ) : Option (Fin 3 → ℝ) :=
  if ∃ i, clipped (eig C).2 i = 0 then none
  else some ((eig C).1 *ᵥ fun i => (2 * Real.sqrt (clipped (eig C).2 i))⁻¹ * e i)

/-- `length` of an n x 3 matrix: the larger dimension, or zero if it is empty. Used in plot_normalised_covariance_scatter.m:30.
-/
def lengthOf (n : Nat) : Nat := if n = 0 then 0 else max n 3

/-- The loop, plot_normalised_covariance_scatter.m:26-42, for the rounds `i`, `i + 1`, ...; `last` is the error of the round before, of
which `norm_t_error_vecnorm` is the norm. -/
noncomputable def normaliseLoop (eig : Eig) (es : List (Fin 3 → ℝ)) (cs : List (Matrix (Fin 3) (Fin 3) ℝ)) :
    Nat → Nat → Option (Option (Fin 3 → ℝ)) → Outcome (Option (Option (Fin 3 → ℝ)))
  | 0, _, last => .ok last
  | n + 1, i, _ =>
    at' es i >>= fun e => at' cs i >>= fun C => normaliseLoop eig es cs n (i + 1) (some (normalisedError eig C e))

open Classical in
/-- The fraction of the elements of `norm_t_error_vecnorm` below one, plot_normalised_covariance_scatter.m:60-61: this is one number, so
that the fraction is one or zero. Without a round the variable does not exist, which is an error. -/
noncomputable def fractionOf : Option (Option (Fin 3 → ℝ)) → Outcome ℝ
  | none => .throws
  | some none => .ok 0
  | some (some w) => .ok (if norm3 w < 1 then 1 else 0)

/-- plot_normalised_covariance_scatter.m:19-62 for the errors and the covariances of the translations: the fraction that is printed. -/
noncomputable def printedFraction (eig : Eig) (es : List (Fin 3 → ℝ)) (cs : List (Matrix (Fin 3) (Fin 3) ℝ)) : Outcome ℝ :=
  if es.length ≠ cs.length then .throws
  else normaliseLoop eig es cs (lengthOf es.length) 0 none >>= fun w => fractionOf w

/-- The errors of the motions between poses, plot_normalised_covariance_scatter.m:3-17. -/
noncomputable def motionErrors (lib : Lib) (gt trajectory : Traj) : Outcome (List (Fin 3 → ℝ)) :=
  interpolate lib (trajectory.map Prod.fst) gt >>= fun ref =>
  relativePoses lib (trajectory.map Prod.snd) >>= fun a =>
  relativePoses lib (ref.map Prod.snd) >>= fun b =>
  .ok (List.zipWith (fun p q => p.position - q.position) a b)

/-- `plot_normalised_covariance_scatter`, plot_normalised_covariance_scatter.m:1-65; `cs`: the upper left blocks of the covariances. -/
noncomputable def covarianceFraction (lib : Lib) (eig : Eig) (gt trajectory : Traj) (cs : List (Matrix (Fin 3) (Fin 3) ℝ)) : Outcome ℝ :=
  motionErrors lib gt trajectory >>= fun es => printedFraction eig es cs

end Trajectory

end Serpent
