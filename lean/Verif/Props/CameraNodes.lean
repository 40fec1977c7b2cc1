import Verif.Props.Camera
import Mathlib.Data.List.Forall2

/-!
# Nodes of `camera_tools` (C103, C104, C105)
-/

namespace Serpent

namespace Camera

variable {K α : Type}

/-! ### Configuration of the operations -/

/-- What an entry of `operations` means according to the comment at the top of config/split_image_example.yaml. -/
def documented : String × OpValue → Option Motion
  | ("rotate_cw", .int 90) => some .cw
  | ("rotate_cw", .int 180) => some .half
  | ("rotate_cw", .int 270) => some .ccw
  | ("rotate_acw", .int 90) => some .ccw
  | ("rotate_acw", .int 180) => some .half
  | ("rotate_acw", .int 270) => some .cw
  | ("flip", .string "horiz") => some .mirrorX
  | ("flip", .string "vert") => some .mirrorY
  | ("flip", .string "both") => some .mirrorXY
  | _ => none

theorem parseOperation_documented (e : String × OpValue) (m : Motion) (h : documented e = some m) :
    parseOperation e.1 e.2 = .ok (operationOf m) := by
  unfold documented at h
  split at h <;> first | (obtain rfl := Option.some.inj h; rfl) | cases h

theorem alter_perm {κ ν : Type} [LinearOrder κ] (m : OMap κ ν) (k : κ) (v : ν) (h : ∀ e ∈ m, e.1 ≠ k) :
    (OMap.assign m k v).Perm ((k, v) :: m) := by
  induction m with
  | nil => exact List.Perm.refl _
  | cons e m ih =>
    have ih := ih (fun x hx => h x (List.mem_cons_of_mem _ hx))
    have he := h e List.mem_cons_self
    show (OMap.alter (e :: m) k _).Perm _
    rw [OMap.alter]
    split_ifs with h1 h2
    · exact List.Perm.refl _
    · exact absurd h2.symm he
    · exact (List.Perm.cons _ ih).trans (List.Perm.swap _ _ _)

theorem members_perm (l : List (String × OpValue)) (hd : (l.map Prod.fst).Nodup) :
    (members l).Perm l ∧ OMap.Sorted (members l) := by
  have main : ∀ (l : List (String × OpValue)) (m : OMap String OpValue), OMap.Sorted m → (l.map Prod.fst).Nodup →
      (∀ e ∈ l, ∀ x ∈ m, x.1 ≠ e.1) →
      (l.foldl (fun m e => OMap.assign m e.1 e.2) m).Perm (l ++ m) ∧ OMap.Sorted (l.foldl (fun m e => OMap.assign m e.1 e.2) m) := by
    intro l
    induction l with
    | nil => exact fun m hm _ _ => ⟨List.Perm.refl _, hm⟩
    | cons e l ih =>
      intro m hm hd hx
      rw [List.map_cons, List.nodup_cons] at hd
      have hp := alter_perm m e.1 e.2 (hx e List.mem_cons_self)
      obtain ⟨h1, h2⟩ := ih (OMap.assign m e.1 e.2) (OMap.sorted_assign hm _ _) hd.2 (fun a ha x hxm => by
        rcases List.mem_cons.1 (hp.mem_iff.1 hxm) with h | h
        · rw [h]
          exact fun h' => hd.1 (h' ▸ List.mem_map_of_mem ha)
        · exact hx a (List.mem_cons_of_mem _ ha) x h)
      exact ⟨h1.trans ((List.Perm.append_left l hp).trans List.perm_middle), h2⟩
  have := main l [] OMap.sorted_nil hd (fun _ _ _ h => nomatch h)
  exact ⟨by simpa [members] using this.1, this.2⟩

theorem parseOperations_documented (m : OMap String OpValue) (ms : List Motion) (h : m.map documented = ms.map some) :
    parseOperations m = .ok (ms.map operationOf) := by
  induction m generalizing ms with
  | nil =>
    cases ms with
    | nil => rfl
    | cons => cases h
  | cons e m ih =>
    cases ms with
    | nil => cases h
    | cons n ms =>
      rw [List.map_cons, List.map_cons, List.cons.injEq] at h
      show (parseOperation e.1 e.2 >>= fun o => parseOperations m >>= fun l => .ok (o :: l)) = _
      rw [parseOperation_documented e n h.1, Outcome.bind_ok, ih ms h.2, Outcome.bind_ok]
      rfl

/-- The configuration for the parameters and operations. -/
def configOf [Ring K] (p : ImageParams K) (ops : List Operation) : SplitConfig K where
  topic := p.topic
  infoTopic := p.infoTopic
  frameId := p.frameId
  region := p.region
  cameraInfo := initialInfo p
  operations := ops

theorem parseImage_some [Ring K] (p : ImageParams K) (l : List (String × OpValue)) (ops : List Operation) (hp : p.operations = some l)
    (h : parseOperations (members l) = .ok ops) : parseImage p = .ok (configOf p ops) := by
  simp only [parseImage, hp, h, Outcome.bind_ok]
  rfl

theorem parseImage_none [Ring K] (p : ImageParams K) (hp : p.operations = none) : parseImage p = .ok (configOf p []) := by
  simp only [parseImage, hp]
  rfl

theorem mapped {β γ : Type} (f : β → Option γ) (l : List β) (h : ∀ e ∈ l, (f e).isSome) : ∃ ms : List γ, l.map f = ms.map some := by
  induction l with
  | nil => exact ⟨[], rfl⟩
  | cons e l ih =>
    obtain ⟨ms, hm⟩ := ih (fun x hx => h x (List.mem_cons_of_mem _ hx))
    obtain ⟨m, he⟩ := Option.isSome_iff_exists.1 (h e List.mem_cons_self)
    exact ⟨m :: ms, by rw [List.map_cons, List.map_cons, he, hm]⟩

/-- C103 (partial). A configuration whose operations are all documented ones (other than a rotation by 0) is accepted, and each of them
is applied once; in the alphabetical order of their names. Missing: the order in which they are written (`C103_fails_order`) and
rotations by 0 (`C103_fails_zero`). -/
theorem C103_operations_partial [Ring K] (p : ImageParams K) (l : List (String × OpValue)) (hp : p.operations = some l)
    (hd : (l.map Prod.fst).Nodup) (hdoc : ∀ e ∈ l, (documented e).isSome) :
    ∃ (c : SplitConfig K) (l' : List (String × OpValue)) (ms : List Motion), parseImage p = .ok c ∧ l'.Perm l ∧ l'.Pairwise (fun a b => a.1 < b.1) ∧ l'.map documented = ms.map some ∧
      c.operations = ms.map operationOf := by
  obtain ⟨h1, h2⟩ := members_perm l hd
  obtain ⟨ms, hms⟩ := mapped documented (members l) (fun e he => hdoc e (h1.mem_iff.1 he))
  exact ⟨configOf p (ms.map operationOf), members l, ms, parseImage_some p l _ hp (parseOperations_documented _ _ hms), h1, h2, hms, rfl⟩

/-- The second configuration of config/split_image_example.yaml, with another flip. -/
def sampleOperations : List (String × OpValue) := [("rotate_acw", .int 90), ("flip", .string "horiz")]

example : (sampleOperations.map Prod.fst).Nodup ∧ ∀ e ∈ sampleOperations, (documented e).isSome := by decide

/-- A configuration with operations. -/
def sampleParams (ops : Option (List (String × OpValue))) : ImageParams ℚ where
  topic := "left"
  region := ⟨1, 0, 3, 2⟩
  infoTopic := "left_info"
  distortionModel := "plumb_bob"
  k1 := 0
  k2 := 0
  t1 := 0
  t2 := 0
  k3 := 0
  fx := 2
  cx := 1
  fy := 3
  cy := 1
  frameId := "left_camera"
  operations := ops

/-- C103, false: operations are not applied in the order in which they are written. A rotation followed by a flip is applied as the flip
followed by the rotation, which has another effect on images. -/
theorem C103_fails_order :
    ∃ c, parseImage (sampleParams (some sampleOperations)) = .ok c ∧
      sampleOperations.map documented = [some .ccw, some .mirrorX] ∧ c.operations = [operationOf .mirrorX, operationOf .ccw] ∧
      ∃ b b' i i', applyAll (K := ℚ) c.operations (sampleImage, sampleInfo) = .ok (b, i) ∧
        applyAll ([Motion.ccw, .mirrorX].map operationOf) (sampleImage, sampleInfo) = .ok (b', i') ∧ b.px 0 0 ≠ b'.px 0 0 := by
  have h : parseOperations (members sampleOperations) = .ok [operationOf .mirrorX, operationOf .ccw] := by decide +kernel
  refine ⟨_, parseImage_some _ _ _ rfl h, rfl, rfl, ?_⟩
  refine ⟨_, _, _, _, rfl, rfl, ?_⟩
  decide

/-- C103, false: the documented rotation by 0 is rejected, in either direction, so that the node does not start. -/
theorem C103_fails_zero :
    (∀ n, n = "rotate_cw" ∨ n = "rotate_acw" → parseOperation n (.int 0) = .throws) ∧
    ∀ v, v = 0 → (∃ c, parseImage (sampleParams (some [("rotate_cw", .int 90)])) = .ok c) ∧
      parseImage (sampleParams (some [("rotate_cw", .int v)])) = .throws := by
  refine ⟨?_, ?_⟩
  · rintro n (rfl | rfl) <;> rfl
  · rintro v rfl
    have h : parseOperations (members [("rotate_cw", .int 0)]) = .throws := by decide +kernel
    have h' : parseOperations (members [("rotate_cw", .int 90)]) = .ok [operationOf .cw] := by decide +kernel
    constructor
    · exact ⟨_, parseImage_some _ _ _ rfl h'⟩
    · simp only [parseImage, sampleParams, h, Outcome.bind_throws]

/-! ### Splitting -/

/-- The region is a part of an image of the width `w` and the height `h`. -/
def InsideOf (r : Rect) (w h : Nat) : Prop := 0 ≤ r.x ∧ 0 ≤ r.width ∧ r.x + r.width ≤ w ∧ 0 ≤ r.y ∧ 0 ≤ r.height ∧ r.y + r.height ≤ h

/-- The part of an image. -/
def Part (a : Image α) (r : Rect) (b : Image α) : Prop :=
  (b.width : Int) = r.width ∧ (b.height : Int) = r.height ∧
  ∀ i j : Nat, (i : Int) < r.height → (j : Int) < r.width → b.px i j = a.px (r.y + i).toNat (r.x + j).toNat

/-- What is to be published for a configuration with the operations `ms`, when an image with the header `h` arrives: the part of the
image moved by the operations, and an info of the same size, time and frame, which projects like the camera that was configured, moved
by the operations. -/
def Correct [Field K] (h : Header) (a : Image α) (p : ImageParams K) (ms : List Motion) (m : Published K α) : Prop :=
  m.topic = p.topic ∧ m.infoTopic = p.infoTopic ∧
  m.header = ⟨h.seq, h.stamp, p.frameId⟩ ∧ m.info.header = ⟨h.seq, h.stamp, p.frameId⟩ ∧
  m.info.width = m.image.width ∧ m.info.height = m.image.height ∧
  m.info.distortionModel = p.distortionModel ∧ m.info.d = [p.k1, p.k2, p.t1, p.t2, p.k3] ∧
  ∃ b, Part a p.region b ∧ Moved ms b m.image ∧
    ∀ X Y Z : K, Z ≠ 0 → project m.info.k (sceneAfterAll ms (X, Y, Z)) =
      planeAfterAll ms (b.width, b.height) (p.fx * X / Z + p.cx, p.fy * Y / Z + p.cy)

theorem splitOne_correct [Field K] (h : Header) (a : Image α) (p : ImageParams K) (ms : List Motion)
    (hin : InsideOf p.region a.width a.height) (hs : p.region.width < 4294967296 ∧ p.region.height < 4294967296) :
    ∃ m, splitOne h a (configOf p (ms.map operationOf)) = .ok m ∧ Correct h a p ms m := by
  obtain ⟨h1, h2, h3, h4, h5, h6⟩ := hin
  obtain ⟨b, j, happ, hmv, hsz, hk, e1, e2, e3⟩ := C68_sequences ms
    (⟨p.region.width.toNat, p.region.height.toNat, fun i j => a.px (p.region.y.toNat + i) (p.region.x.toNat + j)⟩ : Image α)
    ({ initialInfo p with header := { h with frameId := p.frameId } } : CameraInfo K)
  have hw : toUint32 p.region.width = p.region.width.toNat := by unfold toUint32; rw [Int.emod_eq_of_lt h2 hs.1]
  have hh : toUint32 p.region.height = p.region.height.toNat := by unfold toUint32; rw [Int.emod_eq_of_lt h5 hs.2]
  have hsz : (j.width, j.height) = sizeAfterAll ms (toUint32 p.region.width, toUint32 p.region.height) := hsz
  have hbs := hmv.1
  simp only at hbs
  rw [hw, hh, ← hbs, Prod.mk.injEq] at hsz
  refine ⟨⟨p.topic, { h with frameId := p.frameId }, b, p.infoTopic, j⟩, ?_, rfl, rfl, rfl, e1, hsz.1, hsz.2, e2, e3, _, ?_, hmv, ?_⟩
  · show (crop a p.region >>= fun b => applyAll (ms.map operationOf) (b, { initialInfo p with header := { h with frameId := p.frameId } }) >>=
      fun r => .ok (⟨p.topic, { h with frameId := p.frameId }, r.1, p.infoTopic, r.2⟩ : Published K α)) = _
    rw [crop, if_pos ⟨h1, h2, h3, h4, h5, h6⟩, Outcome.bind_ok, happ, Outcome.bind_ok]
  · refine ⟨Int.toNat_of_nonneg h2, Int.toNat_of_nonneg h5, fun i j _ _ => ?_⟩
    show a.px (p.region.y.toNat + i) (p.region.x.toNat + j) = _
    congr 1 <;> omega
  · intro X Y Z hZ
    have k1 : (initialInfo p).k 1 = 0 := rfl
    have k3 : (initialInfo p).k 3 = 0 := rfl
    have k6 : (initialInfo p).k 6 = 0 := rfl
    have k7 : (initialInfo p).k 7 = 0 := rfl
    have k8 : (initialInfo p).k 8 = 1 := rfl
    obtain ⟨_, hproj⟩ := hk ⟨k1, k3, k6, k7, k8⟩
    have := hproj (X, Y, Z) hZ
    rw [this]
    show planeAfterAll ms (toUint32 p.region.width, toUint32 p.region.height) (project (initialInfo p).k (X, Y, Z)) = _
    rw [hw, hh]
    congr 1
    have k0 : (initialInfo p).k 0 = p.fx := rfl
    have k2 : (initialInfo p).k 2 = p.cx := rfl
    have k4 : (initialInfo p).k 4 = p.fy := rfl
    have k5 : (initialInfo p).k 5 = p.cy := rfl
    simp only [project, k0, k1, k2, k3, k4, k5, k6, k7, k8, Prod.mk.injEq, zero_mul, one_mul, add_zero, zero_add]
    constructor <;> field_simp

/-- The operations of the parameters are documented ones, each at most once. -/
def WellConfigured (p : ImageParams K) : Prop := ∀ l, p.operations = some l → (l.map Prod.fst).Nodup ∧ ∀ e ∈ l, (documented e).isSome

/-- The motions that the parameters stand for, in the alphabetical order of the names of the operations. -/
def MotionsOf (p : ImageParams K) (ms : List Motion) : Prop :=
  match p.operations with
  | none => ms = []
  | some l => ∃ l' : List (String × OpValue), l'.Perm l ∧ l'.Pairwise (fun a b => a.1 < b.1) ∧ l'.map documented = ms.map some

theorem parseImage_motions [Ring K] (p : ImageParams K) (h : WellConfigured p) :
    ∃ ms, MotionsOf p ms ∧ parseImage p = .ok (configOf p (ms.map operationOf)) := by
  unfold MotionsOf
  cases ho : p.operations with
  | none => exact ⟨[], rfl, parseImage_none p ho⟩
  | some l =>
    obtain ⟨hd, hdoc⟩ := h l ho
    obtain ⟨h1, h2⟩ := members_perm l hd
    obtain ⟨ms, hms⟩ := mapped documented (members l) (fun e he => hdoc e (h1.mem_iff.1 he))
    exact ⟨ms, ⟨members l, h1, h2, hms⟩, parseImage_some p l _ ho (parseOperations_documented _ _ hms)⟩

/-- C104. With documented operations the node starts; and for each image that contains all regions it publishes, for each
configuration in order, exactly one image and one info: the part of the image, moved by the operations, on the topics and in the frame
that were configured, with the time of the image; the info has the size of the image and projects like the camera that was configured,
moved by the operations. -/
theorem C104_split [Field K] (ps : List (ImageParams K)) (hp : ∀ p ∈ ps, WellConfigured p)
    (hs : ∀ p ∈ ps, p.region.width < 4294967296 ∧ p.region.height < 4294967296) :
    ∃ cs, parseConfiguration ps = .ok cs ∧ ∀ (h : Header) (a : Image α), (∀ p ∈ ps, InsideOf p.region a.width a.height) →
      (split h a cs).2 = .ok () ∧
      List.Forall₂ (fun p m => ∃ ms, MotionsOf p ms ∧ Correct h a p ms m) ps (split h a cs).1 := by
  induction ps with
  | nil => exact ⟨[], rfl, fun h a _ => ⟨rfl, List.Forall₂.nil⟩⟩
  | cons p ps ih =>
    obtain ⟨cs, hcs, hall⟩ := ih (fun q hq => hp q (List.mem_cons_of_mem _ hq)) (fun q hq => hs q (List.mem_cons_of_mem _ hq))
    obtain ⟨ms, hms, hc⟩ := parseImage_motions p (hp p List.mem_cons_self)
    refine ⟨configOf p (ms.map operationOf) :: cs, ?_, fun h a hin => ?_⟩
    · show (parseImage p >>= fun c => parseConfiguration ps >>= fun cs => .ok (c :: cs)) = _
      rw [hc, Outcome.bind_ok, hcs, Outcome.bind_ok]
    · obtain ⟨h1, h2⟩ := hall h a (fun q hq => hin q (List.mem_cons_of_mem _ hq))
      obtain ⟨m, hm, hcor⟩ := splitOne_correct h a p ms (hin p List.mem_cons_self) (hs p List.mem_cons_self)
      rw [split, hm]
      exact ⟨h1, List.Forall₂.cons ⟨ms, hms, hcor⟩ h2⟩

/-- Two configurations, one with operations, in the sample image. -/
example : WellConfigured (sampleParams (some sampleOperations)) ∧ WellConfigured (sampleParams none) ∧
    InsideOf (sampleParams none).region sampleImage.width sampleImage.height ∧
    MotionsOf (sampleParams (some sampleOperations)) [.mirrorX, .ccw] := by
  refine ⟨?_, ?_, ?_, ?_⟩
  · intro l h
    obtain rfl := Option.some.inj h
    decide
  · intro l h
    cases h
  · unfold InsideOf
    decide
  · refine ⟨[("flip", .string "horiz"), ("rotate_acw", .int 90)], by decide, ?_, rfl⟩
    decide +kernel

/-- C104 (the other case). When an image does not contain a region, the images of the configurations before it are published and the
callback ends with an exception: nothing is published for it and the configurations after it. -/
theorem C104_outside [Field K] (h : Header) (a : Image α) (pre post : List (SplitConfig K)) (c : SplitConfig K) (ms : List (Published K α))
    (hpre : split h a pre = (ms, .ok ())) (hc : ¬ InsideOf c.region a.width a.height) :
    split h a (pre ++ c :: post) = (ms, .throws) := by
  induction pre generalizing ms with
  | nil =>
    obtain rfl : [] = ms := congrArg Prod.fst hpre
    have : splitOne h a c = .throws := by
      show (crop a c.region >>= _) = _
      unfold InsideOf at hc
      rw [crop, if_neg hc, Outcome.bind_throws]
    rw [List.nil_append, split, this]
  | cons d pre ih =>
    rw [List.cons_append, split]
    rw [split] at hpre
    cases hd : splitOne h a d with
    | ok m =>
      simp only [hd, Prod.mk.injEq] at hpre
      have := ih (split h a pre).1 (Prod.ext rfl hpre.2)
      simp only [this, hpre.1]
    | throws => simp only [hd, Prod.mk.injEq] at hpre; cases hpre.2
    | ub => simp only [hd, Prod.mk.injEq] at hpre; cases hpre.2

example : ¬ InsideOf ⟨3, 0, 3, 2⟩ sampleImage.width sampleImage.height := by
  unfold InsideOf
  decide

/-- C104. The parts of the images do not depend on the other configurations: adding one changes nothing of what is published for those
before it. -/
theorem C104_prefix [Field K] (h : Header) (a : Image α) (pre post : List (SplitConfig K)) (ms : List (Published K α))
    (hpre : split h a pre = (ms, .ok ())) : ∃ ns o, split h a (pre ++ post) = (ms ++ ns, o) ∧ split h a post = (ns, o) := by
  induction pre generalizing ms with
  | nil =>
    obtain rfl : [] = ms := congrArg Prod.fst hpre
    exact ⟨_, _, rfl, rfl⟩
  | cons d pre ih =>
    rw [List.cons_append, split]
    rw [split] at hpre
    cases hd : splitOne h a d with
    | ok m =>
      simp only [hd, Prod.mk.injEq] at hpre
      obtain ⟨ns, o, e1, e2⟩ := ih (split h a pre).1 (Prod.ext rfl hpre.2)
      exact ⟨ns, o, by simp only [e1, ← hpre.1]; rfl, e2⟩
    | throws => simp only [hd, Prod.mk.injEq] at hpre; cases hpre.2
    | ub => simp only [hd, Prod.mk.injEq] at hpre; cases hpre.2

/-! ### Camera info publisher, change of frame -/

/-- What the info for an image must be, for the parameters. -/
def InfoFor [Field K] (p : InfoParams K) (m : ImageMsg α) (i : CameraInfo K) : Prop :=
  i.header = m.header ∧ i.width = m.image.width ∧ i.height = m.image.height ∧ i.distortionModel = p.distortionModel ∧ i.d = p.d ∧
  (∀ X Y Z, Z ≠ 0 → project i.k (X, Y, Z) = (p.kfx * X / Z + p.kcx, p.kfy * Y / Z + p.kcy)) ∧
  (∀ X Y Z, Z ≠ 0 → projectP i.p (X, Y, Z) = (p.pfx * (X - p.baseline) / Z + p.pcx, p.pfy * Y / Z + p.pcy)) ∧
  (∀ r c : Fin 3, i.r (3 * r.castLE (by decide) + c.castLE (by decide)) = if r = c then 1 else 0)

theorem infoFor_callback [Field K] (p : InfoParams K) (m : ImageMsg α) (i : CameraInfo K) (hi : i.k = (newPublishInfo p).k ∧
    i.p = (newPublishInfo p).p ∧ i.r = (newPublishInfo p).r ∧ i.d = p.d ∧ i.distortionModel = p.distortionModel) :
    InfoFor p m (infoCallback i m) := by
  obtain ⟨hk, hp, hr, hd, hm⟩ := hi
  refine ⟨rfl, rfl, rfl, hm, hd, fun X Y Z hZ => ?_, fun X Y Z hZ => ?_, fun r c => ?_⟩
  · show project i.k _ = _
    rw [hk]
    have k0 : (newPublishInfo p).k 0 = p.kfx := rfl
    have k1 : (newPublishInfo p).k 1 = 0 := rfl
    have k2 : (newPublishInfo p).k 2 = p.kcx := rfl
    have k3 : (newPublishInfo p).k 3 = 0 := rfl
    have k4 : (newPublishInfo p).k 4 = p.kfy := rfl
    have k5 : (newPublishInfo p).k 5 = p.kcy := rfl
    have k6 : (newPublishInfo p).k 6 = 0 := rfl
    have k7 : (newPublishInfo p).k 7 = 0 := rfl
    have k8 : (newPublishInfo p).k 8 = 1 := rfl
    simp only [project, k0, k1, k2, k3, k4, k5, k6, k7, k8, Prod.mk.injEq, zero_mul, one_mul, add_zero, zero_add]
    constructor <;> field_simp
  · show projectP i.p _ = _
    rw [hp]
    have k0 : (newPublishInfo p).p 0 = p.pfx := rfl
    have k1 : (newPublishInfo p).p 1 = 0 := rfl
    have k2 : (newPublishInfo p).p 2 = p.pcx := rfl
    have k3 : (newPublishInfo p).p 3 = -p.pfx * p.baseline := rfl
    have k4 : (newPublishInfo p).p 4 = 0 := rfl
    have k5 : (newPublishInfo p).p 5 = p.pfy := rfl
    have k6 : (newPublishInfo p).p 6 = p.pcy := rfl
    have k7 : (newPublishInfo p).p 7 = 0 := rfl
    have k8 : (newPublishInfo p).p 8 = 0 := rfl
    have k9 : (newPublishInfo p).p 9 = 0 := rfl
    have k10 : (newPublishInfo p).p 10 = 1 := rfl
    have k11 : (newPublishInfo p).p 11 = 0 := rfl
    simp only [projectP, k0, k1, k2, k3, k4, k5, k6, k7, k8, k9, k10, k11, Prod.mk.injEq, zero_mul, one_mul, add_zero, zero_add]
    constructor <;> field_simp <;> ring
  · show i.r _ = _
    rw [hr]
    fin_cases r <;> fin_cases c <;> rfl

/-- C105. For every sequence of images one info is published for each, in order, with its header and size; its camera matrix projects
with the parameters of `K`, its projection matrix with those of `P` from a camera that is farther to the right by the baseline, its
rectification is the identity, and its distortion that of the parameters. -/
theorem C105_publish_info [Field K] (p : InfoParams K) (ms : List (ImageMsg α)) :
    List.Forall₂ (InfoFor p) ms (infoNode (newPublishInfo p) ms) := by
  have main : ∀ (i : CameraInfo K), (i.k = (newPublishInfo p).k ∧ i.p = (newPublishInfo p).p ∧ i.r = (newPublishInfo p).r ∧ i.d = p.d ∧
      i.distortionModel = p.distortionModel) → List.Forall₂ (InfoFor p) ms (infoNode i ms) := by
    induction ms with
    | nil => exact fun _ _ => List.Forall₂.nil
    | cons m ms ih => exact fun i hi => List.Forall₂.cons (infoFor_callback p m i hi) (ih _ hi)
  exact main _ ⟨rfl, rfl, rfl, rfl, rfl⟩

example : ∃ i : CameraInfo ℚ, infoNode (newPublishInfo ⟨"plumb_bob", [], 2, 1, 3, 1, 2, 1, 1 / 2, 3, 1⟩)
    [(⟨⟨3, 9, "cam"⟩, sampleImage⟩ : ImageMsg Nat)] = [i] ∧ i.width = 5 ∧ i.header.stamp = 9 ∧ i.p 3 = -1 := by
  refine ⟨_, rfl, rfl, rfl, ?_⟩
  decide +kernel

/-- C105. A pair of an image and an info is published again with the frame that was configured; nothing else changes. -/
theorem C105_change_frame (frame : String) (m : ImageMsg α) (i : CameraInfo K) :
    let r := changeFrameId frame m i
    r.1.header.frameId = frame ∧ r.2.header.frameId = frame ∧
    r.1.header.seq = m.header.seq ∧ r.1.header.stamp = m.header.stamp ∧ r.2.header.seq = i.header.seq ∧ r.2.header.stamp = i.header.stamp ∧
    r.1.image = m.image ∧ r.2 = { i with header := ⟨i.header.seq, i.header.stamp, frame⟩ } :=
  ⟨rfl, rfl, rfl, rfl, rfl, rfl, rfl, rfl⟩

end Camera

end Serpent
