import Verif.Basic.Outcome
import Verif.Basic.OMap
import Mathlib.Data.String.Basic

/-!
# Model of `GraphManager` and `ISAM2GraphManager`

Source: `serpent/src/back_end/graph_manager.cpp`, `serpent/include/serpent/back_end/graph_manager-inl.hpp`,
`serpent/include/serpent/back_end/graph_manager.hpp`.

Simplifications (apply to the whole file):
* `int`, `unsigned int` are unbounded integers; `ros::Time` and `ros::Duration` are integers (nanoseconds).
* The contents of variables (`Pose3`, `Velocity3`, `ConstantBias`, `double`, `Point3`) are one abstract type `Val`; the
  run-time type check of `gtsam::Values::at<T>` (which cannot fail as long as each symbol family holds one type) is not
  modelled. Measurements in factors are an abstract type `D`; noise models are not modelled.
* `assert` is disabled (release build); a negative index then reaches `gtsam::Symbol`, which throws.
-/

namespace Serpent

namespace Graph

/-- The order of `std::string` (lexicographic), through the lists of characters. -/
instance (priority := 2000) nameOrder : LinearOrder String :=
  LinearOrder.lift' String.toList (fun _ _ h => String.toList_injective h)

/-- `gtsam::Key`, a 64 bit integer (a notation, so that arithmetic tactics see `Nat`). -/
scoped notation "Key" => Nat

/-- The five variable families, graph_manager.cpp:11-15. -/
inductive Fam where
  | B | P | S | V | X
deriving Repr, DecidableEq

/-- ASCII code of the (lower-case) symbol character of `gtsam::symbol_shorthand`. Used in graph_manager.cpp:11-15. -/
def Fam.chr : Fam → Nat
  | .B => 98
  | .P => 112
  | .S => 115
  | .V => 118
  | .X => 120

/-- `gtsam::Symbol(c, j).key()`: character in the top 8 bits, index in the low 56 bits. Throws `std::invalid_argument` when the
index does not fit; a negative `int` converted to `uint64_t` never fits. Used in graph_manager.cpp:11-15 and graph_manager.hpp.
-/
def sym (c : Fam) (j : Int) : Outcome Key :=
  if 0 ≤ j ∧ j < 2 ^ 56 then .ok (c.chr * 2 ^ 56 + j.toNat) else .throws

/-- The kinds of factors made by `create_<kind>_factor`, graph_manager.cpp:84-127. -/
inductive PlainKind where
  | baroBias | baro | betweenPose | combinedImu | priorBaro | priorImuBias | priorPose | priorVelocity
deriving Repr, DecidableEq

/-- All kinds of factors; stereo factors are made at graph_manager.cpp:170-190. -/
inductive FactorKind where
  | plain (p : PlainKind)
  | stereo
deriving Repr, DecidableEq

/-- A factor: its kind, the variables it involves and its measurement. Pointer identity of the shared factor objects is not
modelled. Made in graph_manager.cpp:84-127. -/
structure Factor (D : Type) where
  kind : FactorKind
  vars : List Key
  meas : D
deriving Repr, DecidableEq

/-- Members of `GraphManager`, graph_manager.hpp. -/
structure GM (Val D : Type) where
  /-- `keys`: named keys with (key, priority) -/
  keys : OMap String (Int × Nat) := []
  /-- `timestamps_` -/
  timestamps : OMap Int Int := []
  /-- `body_to_stereo_left_cam` has a value -/
  extrinsicSet : Bool := false
  /-- `K` (null when `none`), represented by the resulting back-projection of an observation from a body pose -/
  calib : Option (Val → D → Val) := none
  /-- `stereo_features` -/
  features : OMap Int (OMap Int D) := []
  /-- `stereo_landmark_ids` -/
  landmarkIds : OMap Int (List Int) := []
  /-- `factors_` -/
  factors : OMap Int (List (Factor D)) := []
  /-- `values_` -/
  values : OMap Key Val := []
  /-- `new_factors_` -/
  newFactors : OMap Int (List (Factor D)) := []
  /-- `new_values_` -/
  newValues : OMap Key Val := []
  /-- `new_stereo_landmark_ids` -/
  newLandmarkIds : OMap Int (List Int) := []
  /-- `unmarginalised_keys_` -/
  unmarg : OMap Int (List Key) := []

variable {Val D : Type}

/-! ### Named keys -/

/-- graph_manager.cpp:246-248 (`keys.at` throws for an unknown name). -/
def key (s : GM Val D) (name : String) (offset : Int) : Outcome Int :=
  match s.keys.find name with
  | some (k, _) => .ok (k + offset)
  | none => .throws

/-- graph_manager.cpp:288-290. -/
def priority (s : GM Val D) (name : String) : Outcome Nat :=
  match s.keys.find name with
  | some (_, p) => .ok p
  | none => .throws

/-- graph_manager.cpp:242-244. -/
def increment (name : String) : M (GM Val D) Unit := fun s =>
  match s.keys.find name with
  | some (k, p) => (.ok (), { s with keys := s.keys.assign name (k + 1, p) })
  | none => (.throws, s)

/-- graph_manager.cpp:335-339 (emplace, then overwrite if the name existed). -/
def setNamedKey (name : String) (k : Int) (p : Nat) : M (GM Val D) Unit :=
  M.modify fun s =>
    match s.keys.find name with
    | none => { s with keys := s.keys.emplace name (k, p) }
    | some _ => { s with keys := s.keys.assign name (k, p) }

/-- `std::min(minimum_key_, key)`, graph_manager.cpp:255 (`none` = no key seen yet, `INT_MAX`). -/
def minAcc (acc : Option Int) (k : Int) : Int :=
  match acc with
  | none => k
  | some m => min m k

/-- Loop of graph_manager.cpp:253-258: running minimum (`none` = `minimum_key_found` is false; the initial value
`INT_MAX` is then never returned). -/
def minLoop (p : Nat) : List (String × (Int × Nat)) → Option Int → Option Int
  | [], acc => acc
  | (_, (k, pr)) :: rest, acc =>
    if pr ≤ p then minLoop p rest (some (minAcc acc k)) else minLoop p rest acc

/-- graph_manager.cpp:250-263. -/
def minimumKey (s : GM Val D) (p : Nat) : Outcome Int :=
  match minLoop p s.keys none with
  | some m => .ok m
  | none => .throws

/-! ### Values -/

/-- graph_manager-inl.hpp:28-35 (`gtsam::Values::update` throws when the key does not exist). -/
def update (raw : Key) (v : Val) : M (GM Val D) Unit := fun s =>
  if s.values.contains raw then
    let s1 := { s with values := s.values.assign raw v }
    if s1.newValues.contains raw then (.ok (), { s1 with newValues := s1.newValues.assign raw v })
    else (.ok (), s1)
  else (.throws, s)

/-- graph_manager-inl.hpp:8-15 (`gtsam::Values::insert` throws when the key exists). -/
def add (c : Fam) (k : Int) (v : Val) : M (GM Val D) Unit := do
  let raw ← M.lift (sym c k)
  let s ← M.get
  if s.values.contains raw then M.throw else do
  M.modify fun s => { s with values := s.values.assign raw v }
  let s ← M.get
  if s.newValues.contains raw then M.throw else do
  M.modify fun s => { s with newValues := s.newValues.assign raw v }
  M.modify fun s => { s with unmarg := s.unmarg.alter k (fun o => o.getD [] ++ [raw]) }

/-- graph_manager-inl.hpp:17-26. -/
def set (c : Fam) (k : Int) (v : Val) : M (GM Val D) Unit := do
  let raw ← M.lift (sym c k)
  let s ← M.get
  if s.values.contains raw then update raw v else add c k v

/-- `values_.at(sym)`: pose 273-276, velocity 488-491, imu_bias 233-236, barometer_bias 75-78, stereo_landmark 403-405
of graph_manager.cpp. -/
def getVal (s : GM Val D) (c : Fam) (k : Int) : Outcome Val := do
  let raw ← sym c k
  match s.values.find raw with
  | some v => .ok v
  | none => .throws

/-- `values_.exists(sym)`, graph_manager.cpp: has_pose 220-223, has_stereo_landmark 229-231. -/
def hasVal (s : GM Val D) (c : Fam) (k : Int) : Outcome Bool := do
  let raw ← sym c k
  .ok (s.values.contains raw)

/-- graph_manager.cpp:273-276. -/
def pose (s : GM Val D) (k : Int) : Outcome Val := getVal s .X k
/-- graph_manager.cpp:488-491. -/
def velocity (s : GM Val D) (k : Int) : Outcome Val := getVal s .V k
/-- graph_manager.cpp:233-236. -/
def imuBias (s : GM Val D) (k : Int) : Outcome Val := getVal s .B k
/-- graph_manager.cpp:75-78. -/
def barometerBias (s : GM Val D) (k : Int) : Outcome Val := getVal s .P k
/-- graph_manager.cpp:265-267 (the two reads are unsequenced; both only read). -/
def navstate (s : GM Val D) (k : Int) : Outcome (Val × Val) := do
  let p ← pose s k
  let v ← velocity s k
  .ok (p, v)
/-- graph_manager.cpp:220-223. -/
def hasPose (s : GM Val D) (k : Int) : Outcome Bool := hasVal s .X k
/-- graph_manager.cpp:229-231. -/
def hasStereoLandmark (s : GM Val D) (id : Int) : Outcome Bool := hasVal s .S id
/-- graph_manager.cpp:403-405. -/
def stereoLandmark (s : GM Val D) (id : Int) : Outcome Val := getVal s .S id

/-- graph_manager.cpp:351-354. -/
def setPose (k : Int) (v : Val) : M (GM Val D) Unit := set .X k v
/-- graph_manager.cpp:382-384. -/
def setVelocity (k : Int) (v : Val) : M (GM Val D) Unit := set .V k v
/-- graph_manager.cpp:325-328. -/
def setImuBias (k : Int) (v : Val) : M (GM Val D) Unit := set .B k v
/-- graph_manager.cpp:317-319. -/
def setBarometerBias (k : Int) (v : Val) : M (GM Val D) Unit := set .P k v
/-- graph_manager.cpp:341-345. -/
def setNavstate (k : Int) (pose vel : Val) : M (GM Val D) Unit := do
  set .X k pose
  set .V k vel

/-- graph_manager.cpp:448-452: iterates over the (ordered) values. -/
def updateFromValues : List (Key × Val) → M (GM Val D) Unit
  | [] => pure ()
  | (k, v) :: rest => do
    update k v
    updateFromValues rest

/-! ### Timestamps -/

/-- graph_manager.cpp:372-376: emplace, then overwrite. -/
def setTimestamp (k : Int) (t : Int) : M (GM Val D) Unit :=
  M.modify fun s => { s with timestamps := (s.timestamps.emplace k t).assign k t }

/-- graph_manager.cpp:435-438. -/
def timestamp (s : GM Val D) (k : Int) : Outcome Int :=
  match s.timestamps.find k with
  | some t => .ok t
  | none => .throws

/-- graph_manager.cpp:426-428. -/
def timeBetween (s : GM Val D) (k1 k2 : Int) : Outcome Int := do
  let t2 ← timestamp s k2
  let t1 ← timestamp s k1
  .ok (t2 - t1)

/-! ### Factors -/

/-- graph_manager.cpp:497-501 with 559-565. -/
def addFactor (k : Int) (f : Factor D) : M (GM Val D) Unit :=
  M.modify fun s =>
    { s with
      factors := s.factors.alter k (fun o => o.getD [] ++ [f])
      newFactors := s.newFactors.alter k (fun o => o.getD [] ++ [f]) }

/-- Symbols of the variables of a factor, in order. For graph_manager.cpp:84-127. -/
def syms : List (Fam × Int) → Outcome (List Key)
  | [] => .ok []
  | (c, j) :: rest => do
    let k ← sym c j
    let ks ← syms rest
    .ok (k :: ks)

/-- The variables of the factor that `create_<kind>_factor(k, …)` makes, graph_manager.cpp:84-127. -/
def factorVars (kind : PlainKind) (k : Int) : List (Fam × Int) :=
  match kind with
  | .baroBias => [(.P, k - 1), (.P, k)]
  | .baro => [(.X, k), (.P, k)]
  | .betweenPose => [(.X, k - 1), (.X, k)]
  | .combinedImu => [(.X, k - 1), (.V, k - 1), (.X, k), (.V, k), (.B, k - 1), (.B, k)]
  | .priorBaro => [(.P, k)]
  | .priorImuBias => [(.B, k)]
  | .priorPose => [(.X, k)]
  | .priorVelocity => [(.V, k)]

/-- graph_manager.cpp: `create_barometric_bias_factor` 84-86, `create_barometric_factor` 88-96 (GTSAM ≥ 4.2),
`create_between_pose_factor` 98-102, `create_combined_imu_factor` 104-108, `create_prior_*_factor` 110-127. -/
def createFactor (kind : PlainKind) (k : Int) (d : D) : M (GM Val D) Unit := do
  let vars ← M.lift (syms (factorVars kind k))
  addFactor k { kind := .plain kind, vars := vars, meas := d }

/-- graph_manager.cpp:196-206: `for i = first..last` (`n` is the number of remaining iterations). -/
def factorsFrom (fs : OMap Int (List (Factor D))) : Nat → Int → List (Factor D)
  | 0, _ => []
  | n + 1, i => (match fs.find i with | some l => l | none => []) ++ factorsFrom fs n (i + 1)

/-- graph_manager.cpp:196-206. -/
def factorsRange (s : GM Val D) (first last : Int) : List (Factor D) :=
  factorsFrom s.factors (last - first + 1).toNat first

/-- graph_manager.cpp:503-509. -/
def allFactors (s : GM Val D) : List (Factor D) := s.factors.flatMap (fun e => e.2)

/-- graph_manager.cpp:208-218. -/
def factorsForKey (s : GM Val D) (k : Key) : List (Factor D) :=
  s.factors.flatMap (fun e => e.2.filter (fun f => f.vars.contains k))

/-- graph_manager.cpp:511-522: iterates over the ordered map from the beginning while the key is `≤ maxKey`. -/
def extractFactorsLoop (maxKey : Int) :
    OMap Int (List (Factor D)) → List (Factor D) × OMap Int (List (Factor D))
  | [] => ([], [])
  | (k, fs) :: rest =>
    if k ≤ maxKey then
      let r := extractFactorsLoop maxKey rest
      (fs ++ r.1, r.2)
    else ([], (k, fs) :: rest)

/-- graph_manager.cpp:511-522. -/
def extractNewFactors (maxKey : Int) : M (GM Val D) (List (Factor D)) := fun s =>
  let r := extractFactorsLoop maxKey s.newFactors
  (.ok r.1, { s with newFactors := r.2 })

/-- graph_manager.cpp:547-557. -/
def extractKeysLoop (maxKey : Int) : OMap Int (List Key) → List Key × OMap Int (List Key)
  | [] => ([], [])
  | (k, ks) :: rest =>
    if k ≤ maxKey then
      let r := extractKeysLoop maxKey rest
      (ks ++ r.1, r.2)
    else ([], (k, ks) :: rest)

/-- graph_manager.cpp:547-557. -/
def extractUnmarginalisedKeys (maxKey : Int) : M (GM Val D) (List Key) := fun s =>
  let r := extractKeysLoop maxKey s.unmarg
  (.ok r.1, { s with unmarg := r.2 })

/-! ### Stereo -/

/-- Push one stereo factor to `factors_[k]` and `new_factors_[k]`, graph_manager.cpp:170-174 and 187-190. -/
def pushStereo (k : Int) (poseIdx : Int) (id : Int) (obs : D) : M (GM Val D) Unit := do
  let x ← M.lift (sym .X poseIdx)
  let l ← M.lift (sym .S id)
  addFactor k { kind := .stereo, vars := [x, l], meas := obs }

/-- First tracking of a feature, graph_manager.cpp:169-178. -/
def stereoFirst (k id : Int) (prevObs : D) : M (GM Val D) Unit := do
  pushStereo k (k - 1) id prevObs
  M.modify fun s => { s with landmarkIds := s.landmarkIds.alter k (fun o => o.getD [] ++ [id]) }
  M.modify fun s => { s with newLandmarkIds := s.newLandmarkIds.alter k (fun o => o.getD [] ++ [id]) }

/-- graph_manager.cpp:166-179; `prevPrev` are the features of the frame before the previous one (`none` = `rend()`). -/
def stereoPrev (k : Int) (prevPrev : Option (OMap Int D)) (id : Int) (prevObs : D) : M (GM Val D) Unit :=
  match prevPrev with
  | none => stereoFirst k id prevObs
  | some pp => if pp.contains id then pure () else stereoFirst k id prevObs

/-- graph_manager.cpp:181-190. `camPose` is the pose of key `k` read before the loop (157); `K` null is dereferenced by
`backproject`. -/
def stereoCurrent (k : Int) (camPose : Val) (id : Int) (obs : D) : M (GM Val D) Unit := do
  let s ← M.get
  match s.calib with
  | none => M.ub
  | some backproject => do
    set .S id (backproject camPose obs)
    pushStereo k k id obs

/-- Body of the loop graph_manager.cpp:164-192 for one feature of the newest frame. `prev` are the features of the
frame before (`features_im1`). -/
def stereoFeature (k : Int) (camPose : Val) (prev : OMap Int D) (prevPrev : Option (OMap Int D))
    (id : Int) (obs : D) : M (GM Val D) Unit :=
  match prev.find id with
  | none => pure ()
  | some prevObs => do
    stereoPrev k prevPrev id prevObs
    stereoCurrent k camPose id obs

/-- Loop graph_manager.cpp:164-192. -/
def stereoLoop (k : Int) (camPose : Val) (prev : OMap Int D) (prevPrev : Option (OMap Int D)) :
    List (Int × D) → M (GM Val D) Unit
  | [] => pure ()
  | (id, obs) :: rest => do
    stereoFeature k camPose prev prevPrev id obs
    stereoLoop k camPose prev prevPrev rest

/-- graph_manager.cpp:398-401: throws when the pose is missing or the extrinsic was never set. -/
def stereoCameraPose (k : Int) : M (GM Val D) Val := do
  let s ← M.get
  let p ← M.lift (getVal s .X k)
  if s.extrinsicSet then pure p else M.throw

/-- graph_manager.cpp:129-194. The frames are taken from the end of the ordered map (`rbegin`). -/
def createStereo (k : Int) (feats : OMap Int D) : M (GM Val D) Unit := do
  let s ← M.get
  if s.features.contains k then M.throw else do
  M.modify fun s => { s with features := s.features.emplace k feats }
  M.modify fun s => { s with factors := s.factors.emplace k [] }
  M.modify fun s => { s with newFactors := s.newFactors.emplace k [] }
  let s ← M.get
  match s.features.reverse with
  | (_, cur) :: (_, prev) :: older =>
    let hp ← M.lift (hasVal s .X k)
    if !hp then M.throw else do
    let camPose ← stereoCameraPose k
    M.modify fun s => { s with landmarkIds := s.landmarkIds.emplace k [] }
    M.modify fun s => { s with newLandmarkIds := s.newLandmarkIds.emplace k [] }
    stereoLoop k camPose prev (older.head?.map (fun e => e.2)) cur
  | _ => pure ()

/-- `set_body_to_stereo_left_cam_pose`, graph_manager.cpp:313-315. -/
def setExtrinsic : M (GM Val D) Unit := M.modify fun s => { s with extrinsicSet := true }

/-- `set_stereo_calibration`, graph_manager.cpp:360-366. -/
def setCalibration (bp : Val → D → Val) : M (GM Val D) Unit := M.modify fun s => { s with calib := some bp }

/-- Landmarks of one id list, graph_manager.cpp:411-413 and 418-420 (`emplace` keeps the first). -/
def landmarksOf (s : GM Val D) : List Int → OMap Int Val → Outcome (OMap Int Val)
  | [], acc => .ok acc
  | id :: rest, acc => do
    let v ← getVal s .S id
    landmarksOf s rest (acc.emplace id v)

/-- graph_manager.cpp:407-424. -/
def stereoLandmarks (s : GM Val D) (k : Int) : Outcome (OMap Int Val) :=
  if k = -1 then landmarksOf s (s.landmarkIds.flatMap (fun e => e.2)) []
  else match s.landmarkIds.find k with
    | some ids => landmarksOf s ids []
    | none => .ok []

/-! ### Extraction of value ranges -/

/-- What reading the key through the end iterator of `gtsam::Values` gives. The C++ standard leaves it undefined (`undefined`).
In libstdc++ the end node of a `std::map` is the header, and the word at the position of a node's key is the number of entries
(`nodeCount`). Met in graph_manager.cpp:503-522. -/
inductive EndRead where
  | undefined
  | nodeCount
deriving Repr, DecidableEq

/-- Loop graph_manager.cpp:457-460. `n` is the number of entries of the container. The loop condition dereferences the
iterator without comparing it to the end. -/
def addValuesLoop (er : EndRead) (n : Nat) (first last : Key) :
    List (Key × Val) → OMap Key Val → Outcome (OMap Key Val)
  | [], acc =>
    match er with
    | .undefined => .ub
    | .nodeCount => if n ≥ first ∧ n ≤ last then .ub else .ok acc
  | (k, v) :: rest, acc =>
    if k ≥ first ∧ k ≤ last then
      if acc.contains k then .throws else addValuesLoop er n first last rest (acc.assign k v)
    else .ok acc

/-- graph_manager.cpp:454-461. -/
def addValues (er : EndRead) (acc vals : OMap Key Val) (first last : Key) : Outcome (OMap Key Val) :=
  addValuesLoop er vals.length first last (vals.dropWhile (fun e => decide (e.1 < first))) acc

/-- The four `add_values` calls of graph_manager.cpp:465-468 and 526-529. -/
def addFamilies (er : EndRead) (vals : OMap Key Val) (first last : Int) (acc : OMap Key Val) :
    List Fam → Outcome (OMap Key Val)
  | [] => .ok acc
  | c :: cs => do
    let a ← sym c first
    let b ← sym c last
    let acc' ← addValues er acc vals a b
    addFamilies er vals first last acc' cs

/-- `insert(S(id), vals.at(S(id)))` for a list of ids, graph_manager.cpp:472-474 and 533-535: throws when the value is
missing or already inserted. -/
def insertLandmarks (vals : OMap Key Val) : List Int → OMap Key Val → Outcome (OMap Key Val)
  | [], acc => .ok acc
  | id :: rest, acc => do
    let raw ← sym .S id
    match vals.find raw with
    | none => .throws
    | some v => if acc.contains raw then .throws else insertLandmarks vals rest (acc.assign raw v)

/-- Loop graph_manager.cpp:471-476. -/
def valuesLandmarkLoop (vals : OMap Key Val) (last : Int) :
    List (Int × List Int) → OMap Key Val → Outcome (OMap Key Val)
  | [], acc => .ok acc
  | (k, ids) :: rest, acc =>
    if k ≤ last then do
      let acc' ← insertLandmarks vals ids acc
      valuesLandmarkLoop vals last rest acc'
    else .ok acc

/-- graph_manager.cpp:463-478. -/
def valuesRange (er : EndRead) (s : GM Val D) (first last : Int) : Outcome (OMap Key Val) := do
  let acc ← addFamilies er s.values first last [] [.B, .X, .V, .P]
  valuesLandmarkLoop s.values last (s.landmarkIds.dropWhile (fun e => decide (e.1 ≠ first))) acc

/-- Loop graph_manager.cpp:531-539; returns the remaining `new_stereo_landmark_ids`. -/
def extractLandmarkLoop (vals : OMap Key Val) (maxKey : Int) :
    OMap Int (List Int) → OMap Key Val → Outcome (OMap Key Val) × OMap Int (List Int)
  | [], acc => (.ok acc, [])
  | (k, ids) :: rest, acc =>
    if k ≤ maxKey then
      match insertLandmarks vals ids acc with
      | .ok acc' => extractLandmarkLoop vals maxKey rest acc'
      | .throws => (.throws, (k, ids) :: rest)
      | .ub => (.ub, (k, ids) :: rest)
    else (.ok acc, (k, ids) :: rest)

/-- graph_manager.cpp:524-545. -/
def extractNewValues (er : EndRead) (maxKey : Int) : M (GM Val D) (OMap Key Val) := fun s =>
  match addFamilies er s.newValues 0 maxKey [] [.B, .X, .V, .P] with
  | .throws => (.throws, s)
  | .ub => (.ub, s)
  | .ok acc =>
    let r := extractLandmarkLoop s.newValues maxKey s.newLandmarkIds acc
    let s1 := { s with newLandmarkIds := r.2 }
    match r.1 with
    | .ok ext => (.ok ext, { s1 with newValues := ext.foldl (fun m e => m.erase e.1) s1.newValues })
    | .throws => (.throws, s1)
    | .ub => (.ub, s1)

/-! ### `ISAM2GraphManager` -/

/-- The operations of `gtsam::ISAM2` that are used, with an arbitrary state `O`; `update` and `marginalizeLeaves` may throw.
Used in graph_manager.cpp:531-632. -/
structure OptApi (Val D O : Type) where
  update : O → List (Factor D) → OMap Key Val → Outcome O
  estimate : O → OMap Key Val
  marginalizeLeaves : O → List Key → Outcome O

/-- Members of `ISAM2GraphManager`; initial values from graph_manager.cpp:571-576. -/
structure Isam (Val D O : Type) where
  gm : GM Val D := {}
  opt : O
  optKey : Int := -1
  marginalisation : Bool := false
  margKey : Int := -1
  window : Nat := 0

variable {O : Type}

/-- A `GraphManager` method called on the derived object. The class of graph_manager.hpp:371-407. -/
def onGm {α : Type} (m : M (GM Val D) α) : M (Isam Val D O) α := fun s =>
  let r := m s.gm
  (r.1, { s with gm := r.2 })

/-- graph_manager.cpp:594-601. -/
def marginalise (api : OptApi Val D O) (k : Int) : M (Isam Val D O) Unit := do
  let s ← M.get
  if k > s.optKey then M.throw else do
  let ks ← onGm (extractUnmarginalisedKeys k)
  M.modify fun s => { s with margKey := k }
  let s ← M.get
  let o ← M.lift (api.marginalizeLeaves s.opt ks)
  M.modify fun s => { s with opt := o }

/-- graph_manager.cpp:603-613. The two argument expressions of `optimiser.update` are evaluated in unspecified order;
factors first is modelled (the two extractions touch disjoint members, so the order only matters when the second one
throws). -/
def optimise (er : EndRead) (api : OptApi Val D O) (maxKey : Int) : M (Isam Val D O) Unit := do
  let fs ← onGm (extractNewFactors maxKey)
  let vs ← onGm (extractNewValues er maxKey)
  let s ← M.get
  let o ← M.lift (api.update s.opt fs vs)
  M.modify fun s => { s with opt := o }
  M.modify fun s => { s with optKey := maxKey }
  onGm (updateFromValues (api.estimate o))
  let s ← M.get
  let newMargKey := s.optKey - (s.window : Int)
  if s.marginalisation ∧ s.margKey ≤ newMargKey then marginalise api newMargKey else pure ()

/-- graph_manager.cpp:623-628. -/
def setMarginalisation (enabled : Bool) (window : Nat) : M (Isam Val D O) Unit :=
  M.modify fun s =>
    let s1 := { s with marginalisation := enabled }
    if enabled then { s1 with window := window } else s1

end Graph

end Serpent
