import Verif.Model.EigenExt
import Verif.Model.LidarOptions

/-!
# Model of the registration: configuration, scan-to-scan and scan-to-map callbacks

serpent/include/serpent/front_end/lidar/registration-inl.hpp ("registration-inl.hpp"). Simplifications: the alignment of two clouds
by PCL and the covariances computed from an alignment are parameters (the covariances are modelled in Model/RegistrationCovariance
and Model/IcpNonlinear); parameters that are only handed to PCL and log messages are not modelled, output for debugging is in
Model/RegistrationDebug; noise
parameters are finite numbers.
-/

namespace Serpent

namespace Lidar

open EigenExt

/-! ### Configuration -/

/-- The parameters read by the constructor of `Registration`; `unitPoints`: the point type is `PointNormalUnit`. Read in
registration-inl.hpp:85-167. -/
structure RegConfig where
  s2m : Bool
  s2sMethod : String
  s2mMethod : String
  covMethod : String
  covModel : String
  pointMethod : String
  voxelFilter : Bool
  rotationNoise : ℚ
  translationNoise : ℚ
  pointNoise : ℚ
  leafSize : ℚ
  rangeNoise : ℚ
  rangeBiasNoise : ℚ
  unitPoints : Bool

/-- The functions that a function pointer can be bound to. Bound in registration-inl.hpp:103-171. -/
inductive CovFunction where
  | censiIid (m : CovModel)
  | censiRange (m : CovModel)
  | censiRangeBias (m : CovModel)
  | llsIid (m : CovModel)
deriving DecidableEq, Repr

/-- The members set by the constructor; `none`: not initialised. For the function pointers `some none` is `nullptr`. Set in
registration-inl.hpp:73-171. -/
structure RegMembers where
  s2s : RegMethod
  s2m : Option RegMethod
  covMethod : CovMethod
  covModel : Option CovModel
  pointMethod : Option PointMethod
  pointVarianceFn : Option (Option CovFunction)
  rangeFn : Option (Option CovFunction)
  rangeBiasFn : Option (Option CovFunction)
  constantVariances : Option (ℚ × ℚ)
  pointVariance : Option ℚ
  rangeVariance : Option ℚ
  rangeBiasVariance : Option ℚ
deriving DecidableEq

/-- `create_covariance_function_bindings`, registration-inl.hpp:18-34. -/
def createBindings (cov : CovMethod) (m : CovModel) (s : RegMembers) : Outcome RegMembers :=
  match cov with
  | .censi => .ok { s with
      pointVarianceFn := some (some (.censiIid m))
      rangeFn := some (some (.censiRange m))
      rangeBiasFn := some (some (.censiRangeBias m)) }
  | .lls => .ok { s with
      pointVarianceFn := some (some (.llsIid m))
      rangeFn := some none
      rangeBiasFn := some none }
  | .constant => .throws

/-- The case `RANGE` of the switch, registration-inl.hpp:156-167. -/
def setRange (c : RegConfig) (cov : CovMethod) (s : RegMembers) : Outcome RegMembers :=
  if cov = .lls then .throws
  else if c.rangeNoise ≤ 0 then .throws
  else .ok { s with rangeVariance := some (c.rangeNoise ^ 2) }

/-- The switch over the point covariance method, registration-inl.hpp:131-170. -/
def setPointVariance (c : RegConfig) (cov : CovMethod) (p : PointMethod) (s : RegMembers) : Outcome RegMembers :=
  match p with
  | .constant => .ok { s with pointVariance := some (c.pointNoise ^ 2) }
  | .voxelSize =>
    if c.voxelFilter = false then .throws else .ok { s with pointVariance := some (c.leafSize ^ 2) }
  | .rangeBias =>
    if cov = .lls then .throws
    else if c.rangeBiasNoise ≤ 0 then .throws
    else setRange c cov { s with rangeBiasVariance := some (c.rangeBiasNoise ^ 2) }
  | .range => setRange c cov s

/-- The part of the constructor for methods other than `CONSTANT`, registration-inl.hpp:103-171. -/
def configureEstimate (c : RegConfig) (cov : CovMethod) (s : RegMembers) : Outcome RegMembers :=
  toCovModel c.covModel >>= fun model =>
  createBindings cov model { s with covModel := some model } >>= fun s =>
  toPointMethod c.pointMethod >>= fun point =>
  setPointVariance c cov point { s with pointMethod := some point }

/-- The choice of the scan-to-map method, registration-inl.hpp:88-90. -/
def configureS2m (c : RegConfig) : Outcome (Option RegMethod) :=
  if c.s2m then toRegMethod c.s2mMethod >>= fun m => .ok (some m) else .ok none

/-- Constructor of `Registration`, registration-inl.hpp:73-171. -/
def construct (c : RegConfig) : Outcome RegMembers :=
  toRegMethod c.s2sMethod >>= fun s2s =>
  configureS2m c >>= fun s2m =>
  toCovMethod c.covMethod >>= fun cov =>
  let s : RegMembers := ⟨s2s, s2m, cov, none, none, none, none, none, none, none, none, none⟩
  if cov = .constant then
    .ok { s with constantVariances := some (c.rotationNoise * c.rotationNoise, c.translationNoise * c.translationNoise) }
  else configureEstimate c cov s

/-- What a call through a function pointer computes: which function, with which variances. In registration-inl.hpp:49-63. -/
inductive CovCall where
  | constant (rotation translation : ℚ)
  | iid (f : CovFunction) (variance : ℚ)
  | range (f : CovFunction) (variance : ℚ)
  | rangeBias (f : CovFunction) (variance bias : ℚ)
deriving DecidableEq, Repr

/-- Reading a member: undefined if it was not initialised. In registration-inl.hpp:36-70. -/
def initialised {α : Type} : Option α → Outcome α
  | some a => .ok a
  | none => .ub

/-- A call through a function pointer: undefined if it was not initialised or null. In registration-inl.hpp:49-63. -/
def pointee (f : Option (Option CovFunction)) : Outcome CovFunction := initialised f >>= initialised

/-- `censi_range_covariance` and `censi_range_bias_covariance` throw if the point type is not `PointNormalUnit`,
registration_covariance-inl.hpp:39-49 and 100-110. -/
def onlyUnit (c : RegConfig) (r : CovCall) : Outcome CovCall := if c.unitPoints then .ok r else .throws

/-- The switch of `covariance_from_registration`, registration-inl.hpp:49-63. -/
def covarianceCallOf (c : RegConfig) (s : RegMembers) (point : PointMethod) : Outcome CovCall :=
  match point with
  | .constant | .voxelSize =>
    pointee s.pointVarianceFn >>= fun f => initialised s.pointVariance >>= fun v => .ok (.iid f v)
  | .range => pointee s.rangeFn >>= fun f => initialised s.rangeVariance >>= fun v => onlyUnit c (.range f v)
  | .rangeBias =>
    pointee s.rangeBiasFn >>= fun f => initialised s.rangeVariance >>= fun v =>
    initialised s.rangeBiasVariance >>= fun b => onlyUnit c (.rangeBias f v b)

/-- `covariance_from_registration`, registration-inl.hpp:36-70: which computation is made. -/
def covarianceCall (c : RegConfig) (s : RegMembers) : Outcome CovCall :=
  if s.covMethod = .constant then initialised s.constantVariances >>= fun v => .ok (.constant v.1 v.2)
  else initialised s.pointMethod >>= covarianceCallOf c s

/-- node.cpp:37-67 (frontend_node.cpp is the same): the point type is `PointNormalUnit` exactly if `requires_unit_vectors`. -/
def nodeConfig (c : RegConfig) : Outcome RegConfig :=
  requiresUnitVectorsNamed c.covMethod c.pointMethod >>= fun u => .ok { c with unitPoints := u }

/-! ### The published transform -/

/-- A matrix of doubles; `none`: infinite or not a number. In registration-inl.hpp:36-70. -/
abbrev Ext6 (K : Type) := Matrix (Fin 3 ⊕ Fin 3) (Fin 3 ⊕ Fin 3) (Option K)

open Classical in
/-- `covariance.allFinite()`: the matrix of the finite entries, if all are finite. In registration-inl.hpp:210-212. -/
noncomputable def allFinite {K : Type} (C : Ext6 K) : Option (Mat6 K) :=
  if h : ∀ i j, (C i j).isSome then some fun i j => (C i j).get (h i j) else none

/-- The message, `geometry_msgs::PoseWithCovarianceStamped`; the covariance in the order of the message. Made in
registration-inl.hpp:214-219. -/
structure RefinedTransform (K : Type) where
  stamp : Int
  frame : String
  pose : Iso K
  covariance : Ext6 K

/-- `publish_refined_transform`, registration-inl.hpp:198-220. `bodyLidar` is `body_frames.body_to_frame("lidar")`, `adj` is
`body_lidar_transform_adjoint` (registration-inl.hpp:174). `reorder_covariance(·, 3)` exchanges the two blocks. -/
noncomputable def refinedTransform {K : Type} [Field K] (bodyLidar : Iso K) (adj : Mat6 K) (bodyFrame : String) (T : Iso K)
    (C : Ext6 K) (stamp : Int) : RefinedTransform K :=
  let covBody : Ext6 K := match allFinite C with
    | some m => fun i j => some (changeCovarianceFrameAdj m adj i j)
    | none => C
  ⟨stamp, bodyFrame, changeRelativeTransformFrame T bodyLidar, covBody.submatrix Sum.swap Sum.swap⟩

/-! ### The callbacks -/

/-- What the two registrations and the covariance estimation compute; `T` are transforms, `P` what is published. Called in
registration-inl.hpp:223-365. -/
structure RegOps (Cloud T P : Type) where
  /-- `s2s->align`: source, target, initial guess. -/
  s2s : Cloud → Cloud → T → T
  /-- `s2m->align`: source, map, initial guess. -/
  s2m : Cloud → Cloud → T → T
  /-- the check of the normals of the target, registration-inl.hpp:287-299. -/
  normalsOk : Cloud → Bool
  /-- `publish_refined_transform` with `covariance_from_registration`: source, target, result. -/
  refined : Cloud → Cloud → T → Outcome P

/-- State of `Registration` and of the callback that handles a map: `maps` are the maps that wait for the callback, `busy` is
the map, the cloud and the scan-to-scan result of the callback that runs. For registration-inl.hpp:198-365. -/
structure RegState (Cloud T P : Type) where
  previous : Option Cloud
  clouds : List Cloud
  results : List T
  maps : List Cloud
  busy : Option (Cloud × Cloud × T)
  published : List P
  alive : Bool

/-- What can happen: a scan with its initial guess is handled; a map arrives; the callback for maps finds its wait over and
takes the first pending scan and result; it ends. The callbacks for scans and for maps share only the two queues, which are
guarded by a mutex, so that the callback for scans can be one step. Callbacks of registration-inl.hpp:223-365. -/
inductive RegEvent (Cloud T : Type) where
  | scan (cloud : Cloud) (guess : T)
  | map (m : Cloud)
  | take
  | finish

variable {Cloud T P : Type}

/-- Initial state. After registration-inl.hpp:73-171. -/
def RegState.init : RegState Cloud T P := ⟨none, [], [], [], none, [], true⟩

/-- Publishing; an exception ends the process. In registration-inl.hpp:307-308 and 364-365. -/
def RegState.publish (s : RegState Cloud T P) : Outcome P → RegState Cloud T P
  | .ok p => { s with published := s.published ++ [p] }
  | _ => { s with alive := false }

/-- `s2s_callback`, registration-inl.hpp:223-313. -/
def s2sCallback (ops : RegOps Cloud T P) (s2mEnabled : Bool) (s : RegState Cloud T P) (cloud : Cloud) (guess : T) :
    RegState Cloud T P :=
  match s.previous with
  | none => { s with previous := some cloud }
  | some prev =>
    let r := ops.s2s cloud prev guess
    if ops.normalsOk prev = false then { s with alive := false }
    else if s2mEnabled then
      { s with clouds := s.clouds ++ [cloud], results := s.results ++ [r], previous := some cloud }
    else { s.publish (ops.refined cloud prev r) with previous := some cloud }

/-- `s2m_callback` until the mutex is released, registration-inl.hpp:316-328; while a queue is empty the callback waits. -/
def s2mTake (s : RegState Cloud T P) : RegState Cloud T P :=
  match s.busy, s.maps, s.clouds, s.results with
  | none, m :: maps, c :: clouds, r :: results =>
    { s with maps := maps, clouds := clouds, results := results, busy := some (m, c, r) }
  | _, _, _, _ => s

/-- The rest of `s2m_callback`, registration-inl.hpp:330-365. -/
def s2mFinish (ops : RegOps Cloud T P) (s : RegState Cloud T P) : RegState Cloud T P :=
  match s.busy with
  | none => s
  | some (m, c, r) => { s with busy := none }.publish (ops.refined c m (ops.s2m c m r))

/-- One event; after the end of the process nothing happens. Callbacks of registration-inl.hpp:223-365. -/
def regStep (ops : RegOps Cloud T P) (s2mEnabled : Bool) (s : RegState Cloud T P) (e : RegEvent Cloud T) : RegState Cloud T P :=
  if s.alive = false then s
  else match e with
    | .scan cloud guess => s2sCallback ops s2mEnabled s cloud guess
    | .map m => { s with maps := s.maps ++ [m] }
    | .take => s2mTake s
    | .finish => s2mFinish ops s

/-- A run. Callbacks of registration-inl.hpp:223-365. -/
def regRun (ops : RegOps Cloud T P) (s2mEnabled : Bool) (events : List (RegEvent Cloud T)) : RegState Cloud T P :=
  events.foldl (regStep ops s2mEnabled) RegState.init

end Lidar

end Serpent
