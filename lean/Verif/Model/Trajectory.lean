import Verif.Model.Quaternion
import Verif.Basic.Outcome
import Mathlib.LinearAlgebra.Matrix.NonsingularInverse

/-!
# Model of the evaluation of trajectories in Matlab

Sources: `plotting/*.m`.

Simplifications (apply to the whole file):
* Numbers are real numbers. Where the code computes "not a number", the model says so; a pose that is not a number is the outcome `ub`.
* The timestamps and the poses of a trajectory have the same length, so a trajectory is a list of pairs.
* A transform `[R, t; 0 0 0 1]` is an `Iso ℝ`.
* Reading outside of an array is an error in Matlab: `throws`. Indices start from 0 here.
* The functions `rotm2quat`, `rotm2axang` and `quatinterp` of Matlab's toolboxes are a parameter, `Lib`. `quat2rotm` normalises its
  argument; `axang2rotm` is Rodrigues' formula.
* What is printed or drawn is not modelled.
-/

namespace Serpent

namespace Trajectory

open EigenExt Matrix

/-- Functions of Matlab's toolboxes. Called in interp_transform.m:1-17. -/
structure Lib where
  rotm2quat : Matrix (Fin 3) (Fin 3) ℝ → Quat
  /-- axis and angle -/
  rotm2axang : Matrix (Fin 3) (Fin 3) ℝ → (Fin 3 → ℝ) × ℝ
  /-- `quatinterp(p, q, f, "slerp")` -/
  quatinterp : Quat → Quat → ℝ → Quat

/-- `q / norm(q)`. In pose_to_matrix.m:1-7. -/
noncomputable def normalise (q : Quat) : Quat :=
  let n := Real.sqrt (q.w ^ 2 + q.x ^ 2 + q.y ^ 2 + q.z ^ 2)
  ⟨q.w / n, q.x / n, q.y / n, q.z / n⟩

/-- `quat2rotm` (Matlab). In pose_to_matrix.m:1-7. -/
noncomputable def quat2rotm (q : Quat) : Matrix (Fin 3) (Fin 3) ℝ := (normalise q).toMatrix

/-- `geometry_msgs/Pose`. Read in pose_to_matrix.m:1-7. -/
structure Pose where
  position : Fin 3 → ℝ
  orientation : Quat

/-- Timestamps and poses. Arguments of interpolate_trajectory.m:1-25. -/
abbrev Traj := List (ℝ × Pose)

/-- `pose_to_matrix`, pose_to_matrix.m:1-7. -/
noncomputable def poseToMatrix (p : Pose) : Iso ℝ := ⟨quat2rotm p.orientation, p.position⟩

/-- `matrix_to_pose`, matrix_to_pose.m:1-14. -/
def matrixToPose (lib : Lib) (T : Iso ℝ) : Pose := ⟨T.t, lib.rotm2quat T.R⟩

/-- `A \ B` for transforms (Matlab): the solution of `A * X = B`. In compute_pose_errors.m:31-39. -/
noncomputable def ldiv (A B : Iso ℝ) : Iso ℝ := ⟨A.R⁻¹ * B.R, A.R⁻¹ *ᵥ (B.t - A.t)⟩

/-- `norm`, `vecnorm` of a vector. In compute_trajectory_length.m:4-10. -/
noncomputable def norm3 (v : Fin 3 → ℝ) : ℝ := Real.sqrt (v 0 ^ 2 + v 1 ^ 2 + v 2 ^ 2)

/-! ### Moving a trajectory -/

/-- The loop of `recompute_trajectory`, recompute_trajectory.m:7-14. -/
noncomputable def recomputeLoop (lib : Lib) : Iso ℝ → Iso ℝ → Traj → Traj
  | _, _, [] => []
  | previous, previousAligned, (s, p) :: ps =>
    let T := poseToMatrix p
    let relative := ldiv previous T
    let aligned := previousAligned * relative
    (s, matrixToPose lib aligned) :: recomputeLoop lib T aligned ps

/-- `recompute_trajectory`, recompute_trajectory.m:1-15. -/
noncomputable def recompute (lib : Lib) (trajectory : Traj) (first : Pose) : Outcome Traj :=
  match trajectory with
  | [] => .throws
  | (s, p) :: ps => .ok ((s, first) :: recomputeLoop lib (poseToMatrix p) (poseToMatrix first) ps)

/-- The loop of `compute_relative_poses`, compute_relative_poses.m:3-8. -/
noncomputable def relativeLoop (lib : Lib) : Iso ℝ → List Pose → List Pose
  | _, [] => []
  | previous, p :: ps => matrixToPose lib (ldiv previous (poseToMatrix p)) :: relativeLoop lib (poseToMatrix p) ps

/-- `compute_relative_poses`, compute_relative_poses.m:1-9; with one pose the result is never assigned, which is an error. -/
noncomputable def relativePoses (lib : Lib) : List Pose → Outcome (List Pose)
  | [] => .throws
  | [_] => .throws
  | p :: q :: ps => .ok (relativeLoop lib (poseToMatrix p) (q :: ps))

/-- The loop of `compute_trajectory_length`, compute_trajectory_length.m:4-10. -/
noncomputable def lengthLoop : ℝ → Iso ℝ → List Pose → ℝ
  | len, _, [] => len
  | len, previous, p :: ps => lengthLoop (len + norm3 (ldiv previous (poseToMatrix p)).t) (poseToMatrix p) ps

/-- `compute_trajectory_length`, compute_trajectory_length.m:1-11. -/
noncomputable def trajectoryLength : List Pose → Outcome ℝ
  | [] => .throws
  | p :: ps => .ok (lengthLoop 0 (poseToMatrix p) ps)

/-! ### Interpolation -/

open Classical in
/-- The coefficient of an interpolation and its check, interp_transform.m:3 and 13-15, interp_vector.m:2-5. With equal times it is not a
number or infinite. -/
noncomputable def coefficient (t1 t2 t : ℝ) : Outcome ℝ :=
  if t2 - t1 = 0 then .ub
  else if (t - t1) / (t2 - t1) < 0 ∨ (t - t1) / (t2 - t1) > 1 then .throws
  else .ok ((t - t1) / (t2 - t1))

/-- `interp_transform`, interp_transform.m:1-17, and the transform made of its results, compute_pose_errors.m:37-38,
align_to_first_pose.m:17-18, interpolate_trajectory.m:22. -/
noncomputable def interpTransform (lib : Lib) (t1 t2 : ℝ) (p1 p2 : Pose) (t : ℝ) : Outcome (Iso ℝ) :=
  coefficient t1 t2 t >>= fun c =>
  .ok ⟨quat2rotm (lib.quatinterp (normalise p1.orientation) (normalise p2.orientation) c),
    p1.position + c • (p2.position - p1.position)⟩

/-- `interp_vector`, interp_vector.m:1-7. -/
noncomputable def interpVector {n : Nat} (t1 t2 : ℝ) (v1 v2 : Fin n → ℝ) (t : ℝ) : Outcome (Fin n → ℝ) :=
  coefficient t1 t2 t >>= fun c => .ok (v1 + c • (v2 - v1))

/-- Reading an element. In interpolate_trajectory.m:12-24. -/
def at' {α : Type} (l : List α) (i : Nat) : Outcome α :=
  match l[i]? with
  | some x => .ok x
  | none => .throws

open Classical in
/-- `while gt_timestamps(gt_index) < t`, compute_pose_errors.m:28-30, compute_vector_errors.m:28-30, align_to_first_pose.m:5-7. -/
noncomputable def advance {α : Type} (gt : List (ℝ × α)) (t : ℝ) (i : Nat) : Outcome Nat :=
  if h : i < gt.length then
    if (gt[i]).1 < t then advance gt t (i + 1) else .ok i
  else .throws
termination_by gt.length - i

open Classical in
/-- The reference at a time, compute_pose_errors.m:31-39, compute_vector_errors.m:31-37, align_to_first_pose.m:8-19. `exact` makes a
result of an element, `interp` of two neighbours. -/
noncomputable def reference {α β : Type} (exact : α → β) (interp : ℝ → ℝ → α → α → ℝ → Outcome β) (gt : List (ℝ × α)) (i : Nat) (t : ℝ) :
    Outcome β :=
  at' gt i >>= fun b =>
  if b.1 = t then .ok (exact b.2)
  else
    match i with
    | 0 => .throws
    | j + 1 => at' gt j >>= fun a => interp a.1 b.1 a.2 b.2 t

/-- compute_pose_errors.m:31-39. -/
noncomputable def poseReference (lib : Lib) (gt : Traj) (i : Nat) (t : ℝ) : Outcome (Iso ℝ) :=
  reference poseToMatrix (interpTransform lib) gt i t

/-- compute_vector_errors.m:31-37. -/
noncomputable def vectorReference {n : Nat} (gt : List (ℝ × (Fin n → ℝ))) (i : Nat) (t : ℝ) : Outcome (Fin n → ℝ) :=
  reference id interpVector gt i t

open Classical in
/-- The inner loop of `interpolate_trajectory`, interpolate_trajectory.m:13-16. -/
noncomputable def interpAdvance (trajectory : Traj) (t : ℝ) (i : Nat) : Nat :=
  if h : i + 1 < trajectory.length then
    if (trajectory[i]).1 ≤ t then interpAdvance trajectory t (i + 1) else i
  else i
termination_by trajectory.length - i

/-- One round of the loop, interpolate_trajectory.m:17-23. -/
noncomputable def interpOne (lib : Lib) (trajectory : Traj) (i : Nat) (t : ℝ) : Outcome Pose :=
  match i with
  | 0 => .throws
  | j + 1 =>
    at' trajectory j >>= fun a => at' trajectory (j + 1) >>= fun b =>
    interpTransform lib a.1 b.1 a.2 b.2 t >>= fun T => .ok (matrixToPose lib T)

/-- The loop, interpolate_trajectory.m:12-24. -/
noncomputable def interpLoop (lib : Lib) (trajectory : Traj) : Nat → List ℝ → Outcome Traj
  | _, [] => .ok []
  | i, t :: ts =>
    interpOne lib trajectory (interpAdvance trajectory t i) t >>= fun p =>
    interpLoop lib trajectory (interpAdvance trajectory t i) ts >>= fun r => .ok ((t, p) :: r)

open Classical in
/-- `interpolate_trajectory`, interpolate_trajectory.m:1-25. -/
noncomputable def interpolate (lib : Lib) (ts : List ℝ) (trajectory : Traj) : Outcome Traj :=
  match trajectory.head?, trajectory.getLast?, ts.head?, ts.getLast? with
  | some a, some b, some r, some q => if a.1 > r ∨ b.1 < q then .throws else interpLoop lib trajectory 0 ts
  | _, _, _, _ => .throws

/-! ### Errors -/

open Classical in
/-- Elements within the time of the reference, compute_pose_errors.m:9-12, compute_vector_errors.m:10-13, compute_pose_data.m:40-44. -/
noncomputable def withinBounds {α β : Type} (gt : List (ℝ × α)) (l : List (ℝ × β)) : Outcome (List (ℝ × β)) :=
  match gt.getLast?, gt.head? with
  | some b, some a => .ok (l.filter fun e => decide (e.1 ≤ b.1 ∧ e.1 ≥ a.1))
  | _, _ => .throws

/-- The errors with their timestamps: absolute and relative ones. Made in compute_pose_errors.m:31-39. -/
structure Errors (ε : Type) where
  absolute : List (ℝ × ε)
  relative : List (ℝ × ε)

/-- The loop of `compute_pose_errors`, compute_pose_errors.m:24-47. `previous`: reference and pose of the round before. -/
noncomputable def poseErrorsLoop (lib : Lib) (gt : Traj) : Nat → Option (Iso ℝ × Iso ℝ) → Traj → Outcome (Errors (Iso ℝ))
  | _, _, [] => .ok ⟨[], []⟩
  | i, previous, (t, p) :: ps =>
    advance gt t i >>= fun i =>
    poseReference lib gt i t >>= fun G =>
    poseErrorsLoop lib gt i (some (G, poseToMatrix p)) ps >>= fun r =>
    .ok ⟨(t, ldiv G (poseToMatrix p)) :: r.absolute,
      match previous with
      | none => r.relative
      | some (G', T') => (t, ldiv (ldiv G' G) (ldiv T' (poseToMatrix p))) :: r.relative⟩

/-- `compute_pose_errors`, compute_pose_errors.m:1-48. -/
noncomputable def poseErrors (lib : Lib) (gt trajectory : Traj) : Outcome (Errors (Iso ℝ)) :=
  withinBounds gt trajectory >>= fun l => poseErrorsLoop lib gt 0 none l

/-- The loop of `compute_vector_errors`, compute_vector_errors.m:25-45. -/
noncomputable def vectorErrorsLoop {n : Nat} (gt : List (ℝ × (Fin n → ℝ))) :
    Nat → Option ((Fin n → ℝ) × (Fin n → ℝ)) → List (ℝ × (Fin n → ℝ)) → Outcome (Errors (Fin n → ℝ))
  | _, _, [] => .ok ⟨[], []⟩
  | i, previous, (t, v) :: vs =>
    advance gt t i >>= fun i =>
    vectorReference gt i t >>= fun g =>
    vectorErrorsLoop gt i (some (g, v)) vs >>= fun r =>
    .ok ⟨(t, v - g) :: r.absolute,
      match previous with
      | none => r.relative
      | some (g', v') => (t, (g - g') - (v - v')) :: r.relative⟩

/-- `compute_vector_errors`, compute_vector_errors.m:1-46. -/
noncomputable def vectorErrors {n : Nat} (gt vectors : List (ℝ × (Fin n → ℝ))) : Outcome (Errors (Fin n → ℝ)) :=
  withinBounds gt vectors >>= fun l => vectorErrorsLoop gt 0 none l

/-! ### Alignment -/

/-- `align_to_first_pose`, align_to_first_pose.m:1-24. -/
noncomputable def alignToFirst (lib : Lib) (gt trajectory : Traj) : Outcome Traj :=
  match trajectory with
  | [] => .throws
  | (t, p) :: ps =>
    advance gt t 0 >>= fun i =>
    poseReference lib gt i t >>= fun G => recompute lib ((t, p) :: ps) (matrixToPose lib G)

/-- The parameters of the alignment, default_plot_opts.m:4-9. -/
structure OptParams where
  gamma : ℝ
  eta : ℝ
  iterations : Nat
  maxTChange : ℝ
  maxRChange : ℝ

/-- `skew`, skew.m:1-6. -/
def skew (v : Fin 3 → ℝ) : Matrix (Fin 3) (Fin 3) ℝ := !![0, -v 2, v 1; v 2, 0, -v 0; -v 1, v 0, 0]

/-- `t_i - t_ref_i`, align_trajectory.m:32-36. -/
noncomputable def residual (R : Matrix (Fin 3) (Fin 3) ℝ) (tc : Fin 3 → ℝ) (e : (Fin 3 → ℝ) × (Fin 3 → ℝ)) : Fin 3 → ℝ :=
  R *ᵥ e.1 + tc - e.2

/-- The first three elements of `grad_loss` before it is doubled, align_trajectory.m:31-38; `i` is the exponent. -/
noncomputable def gradR (gamma : ℝ) (R : Matrix (Fin 3) (Fin 3) ℝ) (tc : Fin 3 → ℝ) : Nat → List ((Fin 3 → ℝ) × (Fin 3 → ℝ)) → Fin 3 → ℝ
  | _, [] => 0
  | i, e :: es => gamma ^ i • (skew e.1 *ᵥ residual R tc e) + gradR gamma R tc (i + 1) es

/-- The last three elements. In compute_pose_data.m:33-82. -/
noncomputable def gradT (gamma : ℝ) (R : Matrix (Fin 3) (Fin 3) ℝ) (tc : Fin 3 → ℝ) : Nat → List ((Fin 3 → ℝ) × (Fin 3 → ℝ)) → Fin 3 → ℝ
  | _, [] => 0
  | i, e :: es => gamma ^ i • residual R tc e + gradT gamma R tc (i + 1) es

/-- `min(max(x, -m), m)`, align_trajectory.m:42-45. -/
noncomputable def clamp (m x : ℝ) : ℝ := min (max x (-m)) m

/-- `r_c`, `t_c` and `R_c`, align_trajectory.m:17-19; `none`: the elements of `R_c` are not numbers. -/
structure AlignState where
  r : Fin 3 → ℝ
  t : Fin 3 → ℝ
  R : Option (Matrix (Fin 3) (Fin 3) ℝ)

open Classical in
/-- `axang2rotm([r_c' / norm(r_c), norm(r_c)])`, align_trajectory.m:48: for zero, 0 / 0 is not a number. -/
noncomputable def axang2rotm (r : Fin 3 → ℝ) : Option (Matrix (Fin 3) (Fin 3) ℝ) :=
  if norm3 r = 0 then none else some (angleAxisMatrix (norm3 r) (fun i => r i / norm3 r))

/-- One iteration, align_trajectory.m:27-48. If the gradient is not a number, `max(NaN, -m)` is `-m`. -/
noncomputable def alignStep (o : OptParams) (es : List ((Fin 3 → ℝ) × (Fin 3 → ℝ))) (s : AlignState) : AlignState :=
  match s.R with
  | some R =>
    let r : Fin 3 → ℝ := fun k => s.r k - clamp o.maxRChange (o.eta * (gradR o.gamma R s.t 0 es k * 2))
    ⟨r, fun k => s.t k - clamp o.maxTChange (o.eta * (gradT o.gamma R s.t 0 es k * 2)), axang2rotm r⟩
  | none =>
    let r : Fin 3 → ℝ := fun k => s.r k - min (-o.maxRChange) o.maxRChange
    ⟨r, fun k => s.t k - min (-o.maxTChange) o.maxTChange, axang2rotm r⟩

/-- The loop, align_trajectory.m:17-55. -/
noncomputable def alignLoop (o : OptParams) (es : List ((Fin 3 → ℝ) × (Fin 3 → ℝ))) : Nat → AlignState
  | 0 => ⟨0, 0, some 1⟩
  | n + 1 => alignStep o es (alignLoop o es n)

/-- align_trajectory.m:56-62. -/
noncomputable def applyCorrection (lib : Lib) (s : AlignState) (first : Pose) (trajectory : Traj) : Outcome Traj :=
  match s.R with
  | none => .ub
  | some R => recompute lib trajectory (matrixToPose lib ((⟨R, s.t⟩ : Iso ℝ) * poseToMatrix first))

/-- `extract_positions`, extract_positions.m:1-7. -/
def positions (l : Traj) : List (Fin 3 → ℝ) := l.map fun e => e.2.position

/-- `align_trajectory`, align_trajectory.m:1-69. -/
noncomputable def alignTrajectory (lib : Lib) (o : OptParams) (gt trajectory : Traj) : Outcome Traj :=
  interpolate lib (trajectory.map Prod.fst) gt >>= fun ref =>
  at' ref 0 >>= fun first =>
  recompute lib trajectory first.2 >>= fun guess =>
  applyCorrection lib (alignLoop o ((positions guess).zip (positions ref)) o.iterations) first.2 trajectory

/-! ### The report -/

/-- How trajectories are aligned, compute_pose_data.m:3-6 and 47-52. -/
inductive Alignment where
  | none
  | firstPose
  | trajectories (o : OptParams)

/-- compute_pose_data.m:3-6 and 47-52: the options; both is an error. -/
def alignmentOf (firstPose trajectories : Bool) (o : OptParams) : Outcome Alignment :=
  if firstPose && trajectories then .throws
  else .ok (if firstPose then .firstPose else if trajectories then .trajectories o else .none)

/-- `rms`. In compute_pose_data.m:33-82. Simplification: 0 for an empty list (NaN in Matlab). -/
noncomputable def rms (l : List ℝ) : ℝ := Real.sqrt ((l.map fun x => x ^ 2).sum / l.length)

/-- `split_poses`, split_poses.m:1-11: translation and rotation vector of an error. -/
noncomputable def splitPose (lib : Lib) (T : Iso ℝ) : (Fin 3 → ℝ) × (Fin 3 → ℝ) :=
  (T.t, (lib.rotm2axang T.R).2 • (lib.rotm2axang T.R).1)

/-- Norms of errors with their timestamps, and their root mean squares, compute_pose_data.m:62-80. -/
structure Norms where
  position : List (ℝ × ℝ)
  rotation : List (ℝ × ℝ)
  positionRmse : ℝ
  rotationRmse : ℝ

/-- compute_pose_data.m:66-72 and 73-80. -/
noncomputable def normsOf (lib : Lib) (l : List (ℝ × Iso ℝ)) : Norms :=
  let p := l.map fun e => (e.1, norm3 (splitPose lib e.2).1)
  let r := l.map fun e => (e.1, norm3 (splitPose lib e.2).2)
  ⟨p, r, rms (p.map Prod.snd), rms (r.map Prod.snd)⟩

/-- What is computed for an odometry, compute_pose_data.m:54-80. -/
structure Entry where
  trajectory : Traj
  length : ℝ
  errors : Errors (Iso ℝ)
  ape : Norms
  rpe : Norms

/-- compute_pose_data.m:46-52. -/
noncomputable def align (lib : Lib) (a : Alignment) (gt trajectory : Traj) : Outcome Traj :=
  match a with
  | .none => .ok trajectory
  | .firstPose => alignToFirst lib gt trajectory
  | .trajectories o => alignTrajectory lib o gt trajectory

/-- One round of the loop of `compute_pose_data`, compute_pose_data.m:33-82. -/
noncomputable def entry (lib : Lib) (a : Alignment) (gt odometry : Traj) : Outcome Entry :=
  withinBounds gt odometry >>= fun l =>
  align lib a gt l >>= fun l =>
  trajectoryLength (l.map Prod.snd) >>= fun len =>
  poseErrors lib gt l >>= fun e =>
  .ok ⟨l, len, e, normsOf lib e.absolute, normsOf lib e.relative⟩

open Classical in
/-- The reference of `compute_pose_data`, compute_pose_data.m:12-19, and of `compute_twist_data`, compute_twist_data.m:6-13; `bounds`: start
and duration, if the filter is on. -/
noncomputable def boundReference {α : Type} (bounds : Option (ℝ × ℝ)) (gt : List (ℝ × α)) : Outcome (List (ℝ × α)) :=
  match bounds with
  | none => .ok gt
  | some (start, duration) =>
    at' gt 0 >>= fun a =>
    .ok (gt.filter fun e => decide (e.1 ≥ a.1 + start ∧ e.1 ≤ a.1 + start + duration))

/-- The rounds of the loop of `compute_pose_data`, compute_pose_data.m:33-82. -/
noncomputable def entries (lib : Lib) (a : Alignment) (gt : Traj) : List Traj → Outcome (List Entry)
  | [] => .ok []
  | o :: os => entry lib a gt o >>= fun e => entries lib a gt os >>= fun r => .ok (e :: r)

/-- `compute_pose_data`, compute_pose_data.m:1-83: the reference, its length and the entries. -/
noncomputable def poseData (lib : Lib) (firstPose trajectories : Bool) (o : OptParams) (bounds : Option (ℝ × ℝ)) (gt : Traj)
    (odometries : List Traj) : Outcome (Traj × ℝ × List Entry) :=
  alignmentOf firstPose trajectories o >>= fun a =>
  boundReference bounds gt >>= fun gt =>
  trajectoryLength (gt.map Prod.snd) >>= fun len =>
  entries lib a gt odometries >>= fun r => .ok (gt, len, r)

end Trajectory

end Serpent
