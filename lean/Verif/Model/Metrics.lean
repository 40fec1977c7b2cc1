import Verif.Model.EigenRos
import Mathlib.Analysis.SpecialFunctions.Trigonometric.Inverse

/-!
# Model of `serpent/scripts/metrics_node.py`

Simplifications:
* Units and headers are left out. Numbers are real numbers; `arccos` of numbers below -1 (NaN) is that of -1.
* rospy calls the callbacks of one subscriber one after another, in a thread of its own, while the main thread computes metrics.
  Reading or assigning an attribute is atomic. `optimized_pose_cb` makes two assignments, and metrics can be computed between them;
  apart from that, the computation of metrics and the callbacks do not overlap.
-/

namespace Serpent

namespace Metrics

open EigenRos (PoseMsg PoseCovMsg)

/-- The names, perception_msgs/MetricDefines, in the order in which they are added (metrics_node.py:113-193). -/
inductive Name where
  | registrationVarRx | registrationVarRy | registrationVarRz | registrationVarTx | registrationVarTy | registrationVarTz
  | varianceOutlierMax | varianceOutlierIdx
  | consistentRelativePoseNorm | consistentRelativePoseAngl
  | instantRelativePoseNorm | instantRelativePoseAngl
deriving DecidableEq, Repr

/-- The attributes, metrics_node.py:14-17. -/
structure Node where
  path : Option (List PoseMsg)
  registration : Option PoseCovMsg
  curr : Option PoseCovMsg
  prev : Option PoseCovMsg

/-- `__init__`, metrics_node.py:13-17. -/
def start : Node := ⟨none, none, none, none⟩

/-- What happens. Handled in metrics_node.py:53-194. -/
inductive Event where
  /-- `optimized_path_cb`, metrics_node.py:35-36 -/
  | path (poses : List PoseMsg)
  /-- the first assignment of `optimized_pose_cb`, metrics_node.py:39 -/
  | poseBegin
  /-- the second assignment of `optimized_pose_cb`, metrics_node.py:40 -/
  | poseEnd (msg : PoseCovMsg)
  /-- `registration_cb`, metrics_node.py:42-43 -/
  | registration (msg : PoseCovMsg)

/-- The effect on the attributes. Of metrics_node.py:53-194. -/
def Node.step (s : Node) : Event → Node
  | .path p => { s with path := some p }
  | .poseBegin => { s with prev := s.curr }
  | .poseEnd m => { s with curr := some m }
  | .registration m => { s with registration := some m }

/-- The effect of a sequence of events. Of metrics_node.py:53-194. -/
def Node.run (s : Node) (es : List Event) : Node := es.foldl Node.step s

/-- Indexing a sequence raises `IndexError` when the index is too large. In metrics_node.py:80-108. -/
def index {α : Type} (l : List α) (i : Nat) : Outcome α :=
  match l[i]? with
  | some x => .ok x
  | none => .throws

/-- Indexing with `-i`. In metrics_node.py:80-108. -/
def indexFromEnd {α : Type} (l : List α) (i : Nat) : Outcome α := if i ≤ l.length then index l (l.length - i) else .throws

/-- `get_var_diag`, metrics_node.py:53-64. -/
noncomputable def varDiag (s : Node) : Outcome (List ℝ) :=
  match s.registration with
  | none => .ok [-1, -1, -1, -1, -1, -1]
  | some r =>
    index r.covariance 0 >>= fun rx => index r.covariance 7 >>= fun ry => index r.covariance 14 >>= fun rz =>
    index r.covariance 21 >>= fun tx => index r.covariance 28 >>= fun ty => index r.covariance 35 >>= fun tz =>
    .ok [rx, ry, rz, tx, ty, tz]

open Classical in
/-- The loop of `get_var_outlier`, metrics_node.py:73-77. -/
noncomputable def outlierLoop (best : ℝ × Int) : Nat → List ℝ → ℝ × Int
  | _, [] => best
  | i, x :: xs => outlierLoop (if x > best.1 then (x, (i : Int)) else best) (i + 1) xs

/-- `get_var_outlier`, metrics_node.py:66-78. -/
noncomputable def varOutlier (s : Node) : ℝ × ℝ :=
  match s.curr with
  | none => (-1, -1)
  | some p =>
    let best := outlierLoop (0, -1) 0 p.covariance
    (best.1, (best.2 : ℝ))

/-- `get_rel_pose`, metrics_node.py:80-108. -/
noncomputable def relPose (a b : PoseMsg) : ℝ × ℝ :=
  let norm := Real.sqrt ((a.position.x - b.position.x) ^ 2 + (a.position.y - b.position.y) ^ 2 + (a.position.z - b.position.z) ^ 2)
  let dot := min 1 (a.orientation.x * b.orientation.x + a.orientation.y * b.orientation.y + a.orientation.z * b.orientation.z +
    a.orientation.w * b.orientation.w)
  (norm, 2 * Real.arccos dot)

/-- metrics_node.py:152-158. -/
noncomputable def consistentPose (s : Node) : Outcome (ℝ × ℝ) :=
  match s.path with
  | some p => indexFromEnd p 1 >>= fun a => indexFromEnd p 2 >>= fun b => .ok (relPose a b)
  | none => .ok (-1, -1)

/-- metrics_node.py:173-181. -/
noncomputable def instantPose (s : Node) : ℝ × ℝ :=
  match s.curr, s.prev with
  | some c, some p => relPose c.pose p.pose
  | _, _ => (-1, -1)

/-- `get_metrics`, metrics_node.py:110-194: the metrics that are published, or an exception that ends the node. -/
noncomputable def getMetrics (s : Node) : Outcome (List (Name × ℝ)) :=
  varDiag s >>= fun diag =>
  consistentPose s >>= fun consistent =>
  .ok (([.registrationVarRx, .registrationVarRy, .registrationVarRz, .registrationVarTx, .registrationVarTy, .registrationVarTz].zip diag) ++
    [(.varianceOutlierMax, (varOutlier s).1), (.varianceOutlierIdx, (varOutlier s).2),
      (.consistentRelativePoseNorm, consistent.1), (.consistentRelativePoseAngl, consistent.2),
      (.instantRelativePoseNorm, (instantPose s).1), (.instantRelativePoseAngl, (instantPose s).2)])

end Metrics

end Serpent
