import Verif.Basic.Outcome
import Verif.Basic.OMap
import Mathlib.Data.String.Basic
import Mathlib.Algebra.Field.Defs

/-!
# Model of `camera_tools`

camera_tools/src/image_operations.cpp, split_image.cpp, publish_info.cpp and change_frame_id.cpp. Simplifications: `double` is a
field; the parameters of an image have the types that are read (the conversions of `XmlRpcValue` throw otherwise); image encodings,
transports and log messages are not modelled; `cv::rotate`, `cv::flip` and the selection of a region are modelled after the
documentation of OpenCV.
-/

namespace Serpent

namespace Camera

variable {K α : Type}

/-- `cv::Mat`: `px row column` for the rows and columns of the image. Used in image_operations.cpp:24-28 and split_image.cpp:94.
-/
structure Image (α : Type) where
  width : Nat
  height : Nat
  px : Nat → Nat → α

/-- `cv::RotateFlags`. Used in image_operations.cpp:10-22. -/
inductive RotateFlags where
  | cw90
  | half
  | ccw90
deriving DecidableEq

/-- An `ImageOperation` object: the members of `Rotate` (`none`: never assigned) and `Flip`, image_operations.hpp:36-37 and 58-59. -/
inductive Operation where
  | rotate (option : Option RotateFlags)
  | flip (flipCode : Int)
deriving DecidableEq

/-- `Flip::Option`, image_operations.hpp:46-50. -/
inductive FlipOption where
  | horiz
  | vert
  | both
deriving DecidableEq

/-- `Rotate::Rotate(int)`, image_operations.cpp:10-22. -/
def newRotate (degreesClockwise : Int) : Outcome Operation :=
  let d := degreesClockwise.tmod 360
  if d ≤ 0 then .throws
  else if d = 90 then .ok (.rotate (some .cw90))
  else if d = 180 then .ok (.rotate (some .half))
  else if d = 270 then .ok (.rotate (some .ccw90))
  else .ok (.rotate none)

/-- `Flip::Flip`, image_operations.cpp:68-82. -/
def newFlip : FlipOption → Operation
  | .horiz => .flip 1
  | .vert => .flip 0
  | .both => .flip (-1)

/-- `cv::rotate` (OpenCV). Used in image_operations.cpp:24-28. -/
def cvRotate (o : RotateFlags) (a : Image α) : Image α :=
  match o with
  | .cw90 => ⟨a.height, a.width, fun r c => a.px (a.height - 1 - c) r⟩
  | .half => ⟨a.width, a.height, fun r c => a.px (a.height - 1 - r) (a.width - 1 - c)⟩
  | .ccw90 => ⟨a.height, a.width, fun r c => a.px c (a.width - 1 - r)⟩

/-- `cv::flip` (OpenCV). Used in image_operations.cpp:84-88. -/
def cvFlip (code : Int) (a : Image α) : Image α :=
  if code = 0 then ⟨a.width, a.height, fun r c => a.px (a.height - 1 - r) c⟩
  else if 0 < code then ⟨a.width, a.height, fun r c => a.px r (a.width - 1 - c)⟩
  else ⟨a.width, a.height, fun r c => a.px (a.height - 1 - r) (a.width - 1 - c)⟩

/-- `std_msgs::Header`. Used in split_image.cpp:94-103 and publish_info.cpp:34-39. -/
structure Header where
  seq : Nat
  stamp : Int
  frameId : String
deriving DecidableEq

/-- `sensor_msgs::CameraInfo`; the binning and the region of interest are not used. Used in image_operations.cpp:30-66 and
split_image.cpp:31-52. -/
structure CameraInfo (K : Type) where
  header : Header
  height : Nat
  width : Nat
  distortionModel : String
  d : List K
  k : Fin 9 → K
  r : Fin 9 → K
  p : Fin 12 → K

/-- `Rotate::apply(const cv::Mat&)`, image_operations.cpp:24-28, and `Flip::apply(const cv::Mat&)`, 84-88; reading the option of a
rotation that was never assigned is undefined. -/
def applyImage : Operation → Image α → Outcome (Image α)
  | .rotate none, _ => .ub
  | .rotate (some o), a => .ok (cvRotate o a)
  | .flip c, a => .ok (cvFlip c a)

section info
variable [Ring K]

/-- Assignments to `K[2]` and `K[5]`. In image_operations.cpp:30-66 and 90-109. -/
def setCentre (k : Fin 9 → K) (cx cy : K) : Fin 9 → K := fun i => if i = 2 then cx else if i = 5 then cy else k i

/-- Assignments to `K[0]` and `K[4]`. In image_operations.cpp:30-66. -/
def setFocal (k : Fin 9 → K) (fx fy : K) : Fin 9 → K := fun i => if i = 0 then fx else if i = 4 then fy else k i

/-- `Rotate::apply(const CameraInfo&)`, image_operations.cpp:30-66. -/
def rotateInfo (o : RotateFlags) (i : CameraInfo K) : CameraInfo K :=
  match o with
  | .cw90 => { i with
      height := i.width
      width := i.height
      k := setCentre (setFocal i.k (i.k 4) (i.k 0)) (i.height - i.k 5) (i.k 2) }
  | .ccw90 => { i with
      height := i.width
      width := i.height
      k := setCentre (setFocal i.k (i.k 4) (i.k 0)) (i.k 5) (i.width - i.k 2) }
  | .half => { i with k := setCentre i.k (i.width - i.k 2) (i.height - i.k 5) }

/-- `Flip::apply(const CameraInfo&)`, image_operations.cpp:90-109. -/
def flipInfo (code : Int) (i : CameraInfo K) : CameraInfo K :=
  if code = 1 then { i with k := setCentre i.k (i.width - i.k 2) (i.k 5) }
  else if code = 0 then { i with k := setCentre i.k (i.k 2) (i.height - i.k 5) }
  else if code = -1 then { i with k := setCentre i.k (i.width - i.k 2) (i.height - i.k 5) }
  else i

/-- `apply(const CameraInfo&)` of an operation. The virtual function called in split_image.cpp:98-101. -/
def applyInfo : Operation → CameraInfo K → Outcome (CameraInfo K)
  | .rotate none, _ => .ub
  | .rotate (some o), i => .ok (rotateInfo o i)
  | .flip c, i => .ok (flipInfo c i)

end info

/-! ### Image splitter -/

/-- Value of a member of `operations`. Read in split_image.cpp:65-83. -/
inductive OpValue where
  | int (n : Int)
  | string (s : String)
deriving DecidableEq

/-- `cv::Rect`. `ImageSplitConfig::region`, split_image.hpp:17-24. -/
structure Rect where
  x : Int
  y : Int
  width : Int
  height : Int
deriving DecidableEq

/-- An element of the parameter `images`, split_image.cpp:20-60; `operations`: the members in the order in which they are written
(`none`: absent). -/
structure ImageParams (K : Type) where
  topic : String
  region : Rect
  infoTopic : String
  distortionModel : String
  k1 : K
  k2 : K
  t1 : K
  t2 : K
  k3 : K
  fx : K
  cx : Int
  fy : K
  cy : Int
  frameId : String
  operations : Option (List (String × OpValue))

/-- `ImageSplitConfig`, split_image.hpp:17-24, with the names of the topics in place of the publishers. -/
structure SplitConfig (K : Type) where
  topic : String
  infoTopic : String
  frameId : String
  region : Rect
  cameraInfo : CameraInfo K
  operations : List Operation

/-- Conversion of an `int` to `uint32_t`. In split_image.cpp:31-52. -/
def toUint32 (z : Int) : Nat := (z % 4294967296).toNat

/-- The camera info of an image, split_image.cpp:31-52; the members that are not assigned are zero. -/
def initialInfo [Ring K] (p : ImageParams K) : CameraInfo K where
  header := ⟨0, 0, ""⟩
  height := toUint32 p.region.height
  width := toUint32 p.region.width
  distortionModel := p.distortionModel
  d := [p.k1, p.k2, p.t1, p.t2, p.k3]
  k := fun i => if i = 0 then p.fx else if i = 2 then p.cx else if i = 4 then p.fy else if i = 5 then p.cy else if i = 8 then 1 else 0
  r := fun _ => 0
  p := fun i => if i = 0 then p.fx else if i = 2 then p.cx else if i = 5 then p.fy else if i = 6 then p.cy else if i = 10 then 1 else 0

/-- A member of `operations`, split_image.cpp:65-83; the conversion of a value of another type throws. -/
def parseOperation (name : String) (v : OpValue) : Outcome Operation :=
  if name = "rotate_cw" then
    match v with
    | .int n => newRotate n
    | .string _ => .throws
  else if name = "rotate_acw" then
    match v with
    | .int n => newRotate ((360 - n).tmod 360)
    | .string _ => .throws
  else if name = "flip" then
    match v with
    | .string s =>
      if s = "horiz" then .ok (newFlip .horiz)
      else if s = "vert" then .ok (newFlip .vert)
      else if s = "both" then .ok (newFlip .both)
      else .throws
    | .int _ => .throws
  else .throws

/-- The members of an `XmlRpcValue` of type struct: a `std::map`. The loop of split_image.cpp:64. -/
def members (l : List (String × OpValue)) : OMap String OpValue := l.foldl (fun m e => OMap.assign m e.1 e.2) []

/-- The loop over the operations, split_image.cpp:64-84. -/
def parseOperations : OMap String OpValue → Outcome (List Operation)
  | [] => .ok []
  | (name, v) :: m => parseOperation name v >>= fun o => parseOperations m >>= fun l => .ok (o :: l)

/-- One round of the loop over the images, split_image.cpp:20-85. -/
def parseImage [Ring K] (p : ImageParams K) : Outcome (SplitConfig K) :=
  let config (ops : List Operation) : SplitConfig K :=
    { topic := p.topic
      infoTopic := p.infoTopic
      frameId := p.frameId
      region := p.region
      cameraInfo := initialInfo p
      operations := ops }
  match p.operations with
  | none => .ok (config [])
  | some l => parseOperations (members l) >>= fun ops => .ok (config ops)

/-- `ImageSplitter::parse_configuration`, split_image.cpp:14-88. -/
def parseConfiguration [Ring K] : List (ImageParams K) → Outcome (List (SplitConfig K))
  | [] => .ok []
  | p :: ps => parseImage p >>= fun c => parseConfiguration ps >>= fun cs => .ok (c :: cs)

/-- `cv_image->image(region)` (OpenCV): throws unless the region is inside of the image. Used in split_image.cpp:94. -/
def crop (a : Image α) (r : Rect) : Outcome (Image α) :=
  if 0 ≤ r.x ∧ 0 ≤ r.width ∧ r.x + r.width ≤ a.width ∧ 0 ≤ r.y ∧ 0 ≤ r.height ∧ r.y + r.height ≤ a.height then
    .ok ⟨r.width.toNat, r.height.toNat, fun i j => a.px (r.y.toNat + i) (r.x.toNat + j)⟩
  else .throws

/-- The loop over the operations, split_image.cpp:98-101. -/
def applyAll [Ring K] : List Operation → Image α × CameraInfo K → Outcome (Image α × CameraInfo K)
  | [], s => .ok s
  | o :: os, (a, i) => applyImage o a >>= fun a => applyInfo o i >>= fun i => applyAll os (a, i)

/-- What is published for an image configuration: topic, image and its header, topic of the info and the info. In
split_image.cpp:94-103. -/
structure Published (K α : Type) where
  topic : String
  header : Header
  image : Image α
  infoTopic : String
  info : CameraInfo K

/-- One round of the loop over the configurations, split_image.cpp:94-103. -/
def splitOne [Ring K] (header : Header) (a : Image α) (c : SplitConfig K) : Outcome (Published K α) :=
  crop a c.region >>= fun b =>
  let h : Header := { header with frameId := c.frameId }
  applyAll c.operations (b, { c.cameraInfo with header := h }) >>= fun r =>
  .ok ⟨c.topic, h, r.1, c.infoTopic, r.2⟩

/-- `ImageSplitter::split`, split_image.cpp:90-106: what has been published, and whether the callback returned. -/
def split [Ring K] (header : Header) (a : Image α) : List (SplitConfig K) → List (Published K α) × Outcome Unit
  | [] => ([], .ok ())
  | c :: cs =>
    match splitOne header a c with
    | .ok m => (m :: (split header a cs).1, (split header a cs).2)
    | .throws => ([], .throws)
    | .ub => ([], .ub)

/-! ### Camera info publisher and change of frame id -/

/-- The parameters of `PublishInfo`, publish_info.cpp:14-31. -/
structure InfoParams (K : Type) where
  distortionModel : String
  d : List K
  kfx : K
  kcx : K
  kfy : K
  kcy : K
  pfx : K
  pcx : K
  baseline : K
  pfy : K
  pcy : K

/-- `PublishInfo::PublishInfo`, publish_info.cpp:5-32. -/
def newPublishInfo [Ring K] (p : InfoParams K) : CameraInfo K where
  header := ⟨0, 0, ""⟩
  height := 0
  width := 0
  distortionModel := p.distortionModel
  d := p.d
  k := fun i => if i = 0 then p.kfx else if i = 2 then p.kcx else if i = 4 then p.kfy else if i = 5 then p.kcy else if i = 8 then 1 else 0
  r := fun i => if i = 0 ∨ i = 4 ∨ i = 8 then 1 else 0
  p := fun i => if i = 0 then p.pfx else if i = 2 then p.pcx else if i = 3 then -p.pfx * p.baseline else if i = 5 then p.pfy
    else if i = 6 then p.pcy else if i = 10 then 1 else 0

/-- What is used of an image message. In publish_info.cpp:34-39. -/
structure ImageMsg (α : Type) where
  header : Header
  image : Image α

/-- `PublishInfo::callback`, publish_info.cpp:34-39: the member, which is also what is published. -/
def infoCallback (info : CameraInfo K) (m : ImageMsg α) : CameraInfo K :=
  { info with header := m.header, height := m.image.height, width := m.image.width }

/-- The node: all messages that are published for a sequence of images. Calls of publish_info.cpp:34-39. -/
def infoNode (info : CameraInfo K) : List (ImageMsg α) → List (CameraInfo K)
  | [] => []
  | m :: ms => infoCallback info m :: infoNode (infoCallback info m) ms

/-- `ChangeFrameId::callback`, change_frame_id.cpp:23-30. -/
def changeFrameId (frameId : String) (m : ImageMsg α) (i : CameraInfo K) : ImageMsg α × CameraInfo K :=
  ({ m with header := { m.header with frameId := frameId } }, { i with header := { i.header with frameId := frameId } })

end Camera

end Serpent
