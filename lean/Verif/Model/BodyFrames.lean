import Verif.Basic.OMap
import Verif.Basic.Outcome
import Verif.Model.Quaternion
import Mathlib.Data.String.Basic

/-!
# Model of `eigen_ros::BodyFrames` (`eigen_ros/src/body_frames.cpp`, `eigen_ros/src/body_frames_tf.cpp`)

Simplifications:
* The configuration is a typed tree: values of the wrong type, which make the XML-RPC conversions throw, are left out.
* Transforms are a parameter `T` with product, inverse and identity; `nodeTransform` below is the transform of a node over the
  real numbers.
* Unordered maps are ordered maps: only insertion and lookup are used, except in `frames()`, whose order is unspecified.
* The transform listener is a parameter (`TF`): the transform between two frame ids at a time, if it can be looked up (within
  the timeout); otherwise `lookupTransform` throws.
-/

namespace Serpent

namespace BodyFrames

/-- Members of the struct of a frame, body_frames.hpp:26-41, except `frames`. `pose` is the transform given by the members
`translation` and `rotation`, if there is one of them. -/
structure NodeData (T : Type) where
  frameId : Option String
  dynamic : Option Bool
  aliases : Option (List String)
  lookupTf : Option Bool
  pose : Option T

/-- A struct of frames: name, members, whether there is a member `frames`, its contents, and the remaining frames. Read in
body_frames.cpp:134-202. -/
inductive Forest (T : Type) where
  | nil
  | cons (name : String) (data : NodeData T) (hasFrames : Bool) (children rest : Forest T)

/-- The parameter `body_frames`: name of the body frame, its member `frame_id`, its member `frames`. Read in
body_frames.cpp:17-26 and 39-45. -/
structure Config (T : Type) where
  body : String
  frameId : Option String
  frames : Option (Forest T)

/-- Transform listener. Used in body_frames.cpp:125-132. -/
abbrev TF (T : Type) := String → String → Int → Option T

/-- Members of `BodyFrames`, body_frames.hpp:239-261. -/
structure St (T : Type) where
  body : String
  frameIds : OMap String String
  frames : OMap String String
  lookedup : OMap String Bool
  dynamic : OMap String Bool
  aliases : OMap String (List String)
  bodyToFrame : OMap String T
  frameToBody : OMap String T

section
variable {T : Type} [Mul T] [One T] [Inv T]

/-- `frame_ids_map.emplace`, throwing if the frame is there; body_frames.cpp:117-119. -/
def emplaceFrameId (k : String) (v : String) : M (St T) Unit := do
  let s ← M.get
  if OMap.contains s.frameIds k then M.throw else M.modify fun s => { s with frameIds := OMap.emplace s.frameIds k v }

/-- `frames_map.emplace`, throwing if the id is there; body_frames.cpp:120-122, 186-188. -/
def emplaceFrame (k : String) (v : String) : M (St T) Unit := do
  let s ← M.get
  if OMap.contains s.frames k then M.throw else M.modify fun s => { s with frames := OMap.emplace s.frames k v }

/-- `lookedup_tf_map.emplace`, body_frames.cpp:29-31, 160-162, 211-213. -/
def emplaceLookedup (k : String) (v : Bool) : M (St T) Unit := do
  let s ← M.get
  if OMap.contains s.lookedup k then M.throw else M.modify fun s => { s with lookedup := OMap.emplace s.lookedup k v }

/-- `dynamic_map.emplace`, body_frames.cpp:32-34, 145-147. -/
def emplaceDynamic (k : String) (v : Bool) : M (St T) Unit := do
  let s ← M.get
  if OMap.contains s.dynamic k then M.throw else M.modify fun s => { s with dynamic := OMap.emplace s.dynamic k v }

/-- `aliases_map.emplace`, body_frames.cpp:35-37, 165-167, 192-194. -/
def emplaceAliases (k : String) (v : List String) : M (St T) Unit := do
  let s ← M.get
  if OMap.contains s.aliases k then M.throw else M.modify fun s => { s with aliases := OMap.emplace s.aliases k v }

/-- `add_frame_strings`, body_frames.cpp:116-123. -/
def addFrameStrings (frame frameId : String) : M (St T) Unit := do
  emplaceFrameId frame frameId
  emplaceFrame frameId frame

/-- `add_frame_transforms` with both transforms, body_frames.cpp:106-114. -/
def addFrameTransforms2 (frame : String) (bodyToFrame frameToBody : T) : M (St T) Unit := do
  let s ← M.get
  if OMap.contains s.bodyToFrame frame then M.throw
  else do
    M.modify fun s => { s with bodyToFrame := OMap.emplace s.bodyToFrame frame bodyToFrame }
    if OMap.contains s.frameToBody frame then M.throw
    else M.modify fun s => { s with frameToBody := OMap.emplace s.frameToBody frame frameToBody }

/-- `add_frame_transforms`, body_frames.cpp:102-104. -/
def addFrameTransforms (frame : String) (bodyToFrame : T) : M (St T) Unit :=
  addFrameTransforms2 frame bodyToFrame bodyToFrame⁻¹

/-- `std::unordered_map::at`. Used in body_frames.cpp:49, 61, 65, 69, 87, 95, 99. -/
def at_ {ν : Type} (m : OMap String ν) (k : String) : Outcome ν :=
  match OMap.find m k with
  | some v => .ok v
  | none => .throws

/-- `lookup_transform`, body_frames.cpp:125-132. -/
def lookupTransform (tf : TF T) (s : St T) (frame1 frame2 : String) (time : Int) : Outcome T :=
  at_ s.frameIds frame1 >>= fun id1 => at_ s.frameIds frame2 >>= fun id2 =>
    match tf id1 id2 time with
    | some t => .ok t
    | none => .throws

/-- `transform_from_node`, body_frames.cpp:204-242. -/
def transformFromNode (tf : TF T) (d : NodeData T) (frame parent : String) : M (St T) T := do
  let lookup := d.lookupTf.getD false
  emplaceLookedup frame lookup
  if lookup then do
    let s ← M.get
    M.lift (lookupTransform tf s parent frame 0)
  else pure (d.pose.getD 1)

/-- The loop over aliases, body_frames.cpp:181-190. -/
def addAliases (frame : String) : List String → M (St T) Unit
  | [] => pure ()
  | a :: as => do
    emplaceFrame a frame
    addAliases frame as

/-- Body of the loop of `process_frames`, body_frames.cpp:138-194: the transform of the frame, if it is not dynamic. -/
def addFrame (tf : TF T) (name : String) (d : NodeData T) (hasFrames : Bool) (prepend : T) (parent : String) :
    M (St T) (Option T) := do
  let frameId := d.frameId.getD name
  addFrameStrings name frameId
  emplaceDynamic name (d.dynamic.getD false)
  if d.dynamic.getD false then
    if d.aliases.isSome || d.lookupTf.isSome || d.pose.isSome || hasFrames then M.throw
    else do
      emplaceLookedup name false
      emplaceAliases frameId []
      pure none
  else do
    let loc ← transformFromNode tf d name parent
    let transform := prepend * loc
    addFrameTransforms name transform
    addAliases name (d.aliases.getD [])
    emplaceAliases frameId (d.aliases.getD [])
    pure (some transform)

/-- `process_frames`, body_frames.cpp:134-202. -/
def processFrames (tf : TF T) : Forest T → T → String → M (St T) Unit
  | .nil, _, _ => pure ()
  | .cons name d hasFrames children rest, prepend, parent => do
    let t ← addFrame tf name d hasFrames prepend parent
    match t with
    | none => processFrames tf rest prepend parent
    | some transform =>
      if hasFrames then do
        processFrames tf children transform name
        processFrames tf rest prepend parent
      else processFrames tf rest prepend parent

/-- Constructor after the body frame has been read, body_frames.cpp:25-45. -/
def build (tf : TF T) (c : Config T) : M (St T) Unit := do
  let frameId := c.frameId.getD c.body
  addFrameStrings c.body frameId
  addFrameTransforms2 c.body 1 1
  emplaceLookedup c.body false
  emplaceDynamic c.body false
  emplaceAliases frameId []
  match c.frames with
  | none => pure ()
  | some f => processFrames tf f 1 c.body

/-- `BodyFrames`, body_frames.cpp:10-46. If it throws there is no object. -/
def create (tf : TF T) (c : Config T) : Outcome (St T) :=
  match build tf c ⟨c.body, [], [], [], [], [], [], []⟩ with
  | (.ok (), s) => .ok s
  | (.throws, _) => .throws
  | (.ub, _) => .ub

/-- `is_dynamic`, body_frames.cpp:98-100. -/
def isDynamic (s : St T) (frame : String) : Outcome Bool := at_ s.dynamic frame

/-- `lookedup_tf`, body_frames.cpp:94-96. -/
def lookedupTf (s : St T) (frame : String) : Outcome Bool := at_ s.lookedup frame

/-- `body_to_frame`, body_frames.cpp:60-62. -/
def bodyToFrame (tf : TF T) (s : St T) (frame : String) (time : Int) : Outcome T :=
  isDynamic s frame >>= fun d => if d then lookupTransform tf s s.body frame time else at_ s.bodyToFrame frame

/-- `frame_to_body`, body_frames.cpp:68-70. -/
def frameToBody (tf : TF T) (s : St T) (frame : String) (time : Int) : Outcome T :=
  isDynamic s frame >>= fun d => if d then lookupTransform tf s frame s.body time else at_ s.frameToBody frame

/-- `frame_to_frame`, body_frames.cpp:72-76. -/
def frameToFrame (tf : TF T) (s : St T) (frame1 frame2 : String) (time : Int) : Outcome T :=
  isDynamic s frame1 >>= fun d1 =>
    (if d1 then .ok true else isDynamic s frame2) >>= fun d =>
      if d then lookupTransform tf s frame1 frame2 time
      else frameToBody tf s frame1 0 >>= fun a => bodyToFrame tf s frame2 0 >>= fun b => .ok (a * b)

/-- `frame_id`, body_frames.cpp:64-66. -/
def frameId (s : St T) (frame : String) : Outcome String := at_ s.frameIds frame

/-- `body_frame_id`, body_frames.cpp:56-58. -/
def bodyFrameId (s : St T) : Outcome String := frameId s s.body

/-- `frame`, body_frames.cpp:86-88. -/
def frame (s : St T) (frameId : String) : Outcome String := at_ s.frames frameId

/-- `aliases`, body_frames.cpp:48-50. -/
def aliases (s : St T) (frameId : String) : Outcome (List String) := at_ s.aliases frameId

/-- `has_frame`, body_frames.cpp:90-92. -/
def hasFrame (s : St T) (frame : String) : Bool := OMap.contains s.frameIds frame

/-- `frames`, body_frames.cpp:78-84, in some order. -/
def frames (s : St T) : List String := s.frameIds.map (·.1)

/-! ## `BodyFramesTf` -/

/-- A static transform sent by the broadcaster: parent, child, transform. Filled in body_frames_tf.cpp:14-31. -/
structure Sent (T : Type) where
  parent : String
  child : String
  transform : T
deriving DecidableEq

/-- The transforms sent for the aliases of a frame, body_frames_tf.cpp:24-31. -/
def sentAliases (parent : String) (as : List String) : List (Sent T) := as.map fun a => ⟨parent, a, 1⟩

/-- The transforms sent for a frame, body_frames_tf.cpp:14-31. -/
def sentFrame (tf : TF T) (s : St T) (f : String) : Outcome (List (Sent T)) :=
  frameId s f >>= fun id => bodyFrameId s >>= fun bid =>
    (if id = bid then .ok [] else lookedupTf s f >>= fun l =>
      if l then .ok [] else bodyToFrame tf s f 0 >>= fun t => .ok [⟨bid, id, t⟩]) >>= fun own =>
    aliases s id >>= fun as => .ok (own ++ sentAliases id as)

/-- The loop over the frames, body_frames_tf.cpp:13-32. -/
def sentFrames (tf : TF T) (s : St T) : List String → Outcome (List (Sent T))
  | [] => .ok []
  | f :: fs => sentFrame tf s f >>= fun a => sentFrames tf s fs >>= fun b => .ok (a ++ b)

/-- Constructor of `BodyFramesTf`: the static transforms sent, body_frames_tf.cpp:9-33. -/
def broadcast (tf : TF T) (c : Config T) : Outcome (List (Sent T)) :=
  create tf c >>= fun s => sentFrames tf s (frames s)

/-- `lookup_transform_callback`, body_frames_tf.cpp:41-45. -/
def lookupCallback (tf : TF T) (s : St T) (source target : String) : Outcome T := frameToFrame tf s source target 0

end

open EigenExt in
/-- Quaternion `normalize()` of Eigen: unchanged if its norm is not positive. Used in body_frames.cpp:238. -/
noncomputable def normalizeQuat (q : Quat) : Quat :=
  let z := q.w * q.w + q.x * q.x + q.y * q.y + q.z * q.z
  if z > 0 then ⟨q.w / Real.sqrt z, q.x / Real.sqrt z, q.y / Real.sqrt z, q.z / Real.sqrt z⟩ else q

open EigenExt in
/-- The transform of a node with members `translation` (each of x, y, z optional) and `rotation` (all of w, x, y, z, if there
is one), body_frames.cpp:217-239. -/
noncomputable def nodeTransform (translation : Option (Option ℝ × Option ℝ × Option ℝ)) (rotation : Option Quat) : Iso ℝ :=
  let t := match translation with
    | some (x, y, z) => ![x.getD 0, y.getD 0, z.getD 0]
    | none => ![0, 0, 0]
  ⟨(normalizeQuat (rotation.getD Quat.id)).toMatrix, t⟩

end BodyFrames

end Serpent
