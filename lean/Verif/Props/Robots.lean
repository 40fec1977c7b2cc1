import Verif.Spec.Robots
import Verif.Props.BodyFrames
import Verif.Props.CameraNodes
import Verif.Props.DataSets
import Verif.Props.Deadlock

/-!
# C148: the robots of the data sets, their cameras and the threads
-/

namespace Serpent

namespace Robots

open BodyFrames EigenExt

variable {tf : TF (Iso ℝ)} {s : St (Iso ℝ)} {c : Config (Iso ℝ)}

/-- All frames have a transform from the configuration and nothing else. -/
def Plain : Forest (Iso ℝ) → Prop
  | .nil => True
  | .cons _ d _ children rest => (∃ t q, d = ⟨none, none, none, none, some (nodeTransform t q)⟩) ∧ Plain children ∧ Plain rest

theorem plain_leaf {name : String} {d : NodeData (Iso ℝ)} {rest : Forest (Iso ℝ)}
    (hd : ∃ t q, d = ⟨none, none, none, none, some (nodeTransform t q)⟩) (hr : Plain rest) : Plain (leaf name d rest) :=
  ⟨hd, trivial, hr⟩

theorem plain_pair (l r : String) (h : ℝ) : Plain (pair l r h) :=
  plain_leaf ⟨_, _, rfl⟩ (plain_leaf ⟨_, _, rfl⟩ trivial)

theorem plain_robots : ∀ r ∈ robots, Plain r.2.forest := by
  intro r hr
  simp only [robots, List.mem_cons, List.not_mem_nil, or_false] at hr
  rcases hr with rfl | rfl | rfl
  · exact plain_leaf ⟨_, _, rfl⟩ (plain_leaf ⟨_, _, rfl⟩ ⟨⟨_, _, rfl⟩, plain_pair _ _ _, ⟨_, _, rfl⟩, plain_pair _ _ _, ⟨_, _, rfl⟩,
      plain_pair _ _ _, ⟨_, _, rfl⟩, plain_pair _ _ _, trivial⟩)
  · exact plain_leaf ⟨_, _, rfl⟩ (plain_leaf ⟨_, _, rfl⟩ ⟨⟨_, _, rfl⟩, plain_pair _ _ _, trivial⟩)
  · exact plain_leaf ⟨_, _, rfl⟩ (plain_leaf ⟨_, _, rfl⟩ ⟨⟨_, _, rfl⟩, plain_leaf ⟨_, _, rfl⟩ trivial, ⟨_, _, rfl⟩,
      plain_leaf ⟨_, _, rfl⟩ trivial, ⟨_, _, rfl⟩, plain_leaf ⟨_, _, rfl⟩ trivial, trivial⟩)

theorem usable_plain (tf : TF (Iso ℝ)) : ∀ (f : Forest (Iso ℝ)) (id : String), Plain f → Usable tf id f
  | .nil, _, _ => trivial
  | .cons name d b children rest, id, h => by
    obtain ⟨⟨t, q, rfl⟩, h1, h2⟩ := h
    refine ⟨fun hm => ?_, fun _ => ⟨fun hl => ?_, fun _ => usable_plain tf children _ h1⟩, usable_plain tf rest id h2⟩
    · cases hm
    · cases hl

theorem plain_declared {id : String} {f : Forest (Iso ℝ)} {x : Decl (Iso ℝ)} (hx : Declares tf id f x) (hf : Plain f) :
    x.dynamic = false ∧ x.looksUp = false ∧ (∀ t ∈ x.path, Rigid t) ∧ ∀ tf', Declares tf' id f x := by
  induction hx with
  | fixed hm hl =>
    obtain ⟨⟨t, q, rfl⟩, -, -⟩ := hf
    cases hl with
    | listener h _ => cases h
    | given hn h =>
      injection h with h
      subst h
      refine ⟨rfl, rfl, fun u hu => ?_, fun tf' => .fixed hm (.given hn rfl)⟩
      rw [List.mem_singleton.1 hu]
      exact (C36_node_rigid t q).1
    | absent _ h => cases h
  | moving hm =>
    obtain ⟨⟨t, q, rfl⟩, -, -⟩ := hf
    cases hm
  | nested hm hl _ ih =>
    obtain ⟨⟨t, q, rfl⟩, hc, -⟩ := hf
    obtain ⟨i1, i2, i3, i4⟩ := ih hc
    cases hl with
    | listener h _ => cases h
    | given hn h =>
      injection h with h
      subst h
      refine ⟨i1, i2, fun u hu => ?_, fun tf' => .nested hm (.given hn rfl) (i4 tf')⟩
      rcases List.mem_cons.1 hu with rfl | hu
      · exact (C36_node_rigid t q).1
      · exact i3 u hu
    | absent _ h => cases h
  | next _ ih =>
    obtain ⟨i1, i2, i3, i4⟩ := ih hf.2.2
    exact ⟨i1, i2, i3, fun tf' => .next (i4 tf')⟩

theorem plain_has {x : Decl (Iso ℝ)} (hx : c.Has tf x) (hf : Plain c.forest) :
    x.dynamic = false ∧ (∀ t ∈ x.path, Rigid t) ∧ ∀ tf', c.Has tf' x := by
  cases hx with
  | body => exact ⟨rfl, by simp, fun _ => .body⟩
  | below h =>
    obtain ⟨h1, -, h3, h4⟩ := plain_declared h hf
    exact ⟨h1, h3, fun tf' => .below (h4 tf')⟩

theorem allGood_plain (tf : TF (Iso ℝ)) (hf : Plain c.forest) : AllGood Rigid tf c := fun _ hx => (plain_has hx hf).2.1

theorem robots_distinct : ∀ r ∈ robots, (r.2.body :: names r.2.forest).Nodup ∧ (r.2.id :: ids r.2.forest).Nodup ∧
    r.2.body = "base_link" ∧ r.2.body :: names r.2.forest = r.1.frames := by
  intro r hr
  simp only [robots, List.mem_cons, List.not_mem_nil, or_false] at hr
  rcases hr with rfl | rfl | rfl
  all_goals
    refine ⟨?_, ?_, rfl, rfl⟩
    · simp only [names, Config.forest, snowboard, ue4, simulator, leaf, pair, Option.getD_some, if_true]
      decide +kernel
    · simp only [ids, idOf, Config.id, Config.forest, snowboard, ue4, simulator, leaf, pair, at_, turned, Option.getD_some, if_true]
      decide +kernel

theorem static_any (h : create tf c = .ok s) {x : Decl (Iso ℝ)} (hx : c.Has tf x) (hd : x.dynamic = false) (tf' : TF (Iso ℝ))
    (time : Int) : bodyToFrame tf' s x.name time = .ok (compose x.path) ∧ frameToBody tf' s x.name time = .ok (compose x.path)⁻¹ := by
  obtain ⟨h1, h2⟩ := C36_path rigid_laws h hx hd time
  have hdyn := (C37_index h hx).2.2.2.2.2.1
  rw [hd] at hdyn
  unfold bodyToFrame frameToBody at *
  rw [hdyn] at h1 h2 ⊢
  exact ⟨h1, h2⟩

theorem rigid_compose : ∀ l : List (Iso ℝ), (∀ t ∈ l, Rigid t) → Rigid (compose l)
  | [], _ => Rigid.one
  | t :: l, h => (h t List.mem_cons_self).mul (rigid_compose l fun u hu => h u (List.mem_cons_of_mem _ hu))

/-- **C148.** The frames of every robot can be used: whatever the transform listener knows, the tree is accepted, the body is
`base_link`, the frames are those that the options are checked against in `C148_starts`, and every frame has a rigid transform to the
body that never changes and is never looked up. -/
theorem C148_robot (d : Params.DataSet) (c : Config (Iso ℝ)) (hr : (d, c) ∈ robots) (tf : TF (Iso ℝ)) :
    ∃ s, create tf c = .ok s ∧ s.body = "base_link" ∧ (∀ f, hasFrame s f = d.hasFrame f) ∧
      ∀ f, hasFrame s f = true → ∃ T : Iso ℝ, Rigid T ∧ ∀ tf' time, bodyToFrame tf' s f time = .ok T ∧
        frameToBody tf' s f time = .ok T⁻¹ := by
  have hp := plain_robots _ hr
  obtain ⟨h1, h2, h3, h4⟩ := robots_distinct _ hr
  obtain ⟨s, hs⟩ := C37_construct_iff.1.2 ⟨h1, h2, usable_plain tf _ _ hp⟩
  obtain ⟨i1, -, i3, -⟩ := C37_index_only hs
  have hbody : s.body = c.body := by
    obtain ⟨es, he, hp⟩ := create_ok hs
    exact (putAll_stored es (bodySt_inv c) hp).body
  refine ⟨s, hs, hbody.trans h3, fun f => ?_, fun f hf => ?_⟩
  · have := i1 f
    rw [h4] at this
    unfold Params.DataSet.hasFrame
    rw [Bool.eq_iff_iff, this, decide_eq_true_eq]
  · obtain ⟨x, hx, rfl⟩ := i3 f hf
    obtain ⟨j1, j2, -⟩ := plain_has hx hp
    exact ⟨compose x.path, rigid_compose _ j2, fun tf' time => static_any hs hx j1 tf' time⟩

/-! ### The stereo cameras -/

theorem declares_fixed {id name : String} {b : Bool} {children rest : Forest (Iso ℝ)} (t : Option (Option ℝ × Option ℝ × Option ℝ))
    (q : Option Quat) : Declares tf id (.cons name ⟨none, none, none, none, some (nodeTransform t q)⟩ b children rest)
      ⟨name, name, false, [], false, [nodeTransform t q]⟩ :=
  .fixed (fun h => by cases h) (.given (fun h => by cases h) rfl)

theorem declares_nested {id name : String} {children rest : Forest (Iso ℝ)} (t : Option (Option ℝ × Option ℝ × Option ℝ))
    (q : Option Quat) {e : Decl (Iso ℝ)} (h : Declares tf name children e) :
    Declares tf id (.cons name ⟨none, none, none, none, some (nodeTransform t q)⟩ true children rest)
      { e with path := nodeTransform t q :: e.path } :=
  .nested (fun h => by cases h) (.given (fun h => by cases h) rfl) h

/-- The transform of a frame that is shifted along the x axis. -/
noncomputable def shift (x : ℝ) : Iso ℝ := nodeTransform (some (some x, none, none)) none

theorem shift_eq (x : ℝ) : shift x = ⟨1, ![x, 0, 0]⟩ := by
  have h := (C36_node_rigid (some (some x, none, none)) none).2.2.1 rfl
  ext1
  · exact h
  · rfl

theorem shift_inv_mul (x y : ℝ) : (shift x)⁻¹ * shift y = ⟨1, ![y - x, 0, 0]⟩ := by
  rw [shift_eq, shift_eq]
  ext1
  · rw [Iso.mul_R, Iso.inv_R]
    simp
  · rw [Iso.mul_t, Iso.inv_R, Iso.inv_t]
    funext i
    fin_cases i <;> simp [sub_eq_add_neg]

theorem relative {a b p : Iso ℝ} (hp : Rigid p) (ha : Rigid a) : (p * a)⁻¹ * (p * b) = a⁻¹ * b := by
  rw [hp.mul_inv_rev ha, Iso.mul_assoc, ← Iso.mul_assoc p⁻¹, hp.inv_mul, Iso.one_mul]

theorem rigid_shift (x : ℝ) : Rigid (shift x) := (C36_node_rigid _ _).1

theorem frames_static (h : create tf c = .ok s) (hf : Plain c.forest) {x y : Decl (Iso ℝ)} (hx : c.Has tf x) (hy : c.Has tf y)
    (tf' : TF (Iso ℝ)) (time : Int) : frameToFrame tf' s x.name y.name time = .ok ((compose x.path)⁻¹ * compose y.path) := by
  have dx := (plain_has hx hf).1
  have dy := (plain_has hy hf).1
  have hdx := (C37_index h hx).2.2.2.2.2.1
  have hdy := (C37_index h hy).2.2.2.2.2.1
  rw [dx] at hdx
  rw [dy] at hdy
  unfold frameToFrame
  rw [hdx, hdy, (static_any h hx dx tf' 0).2, (static_any h hy dy tf' 0).1]
  rfl

/-- Two cameras in the frame of a pair. -/
theorem siblings (h : create tf c = .ok s) (hf : Plain c.forest) {t q} {n m i j : String} {x y : ℝ}
    (hx : c.Has tf ⟨n, i, false, [], false, [nodeTransform t q, shift x]⟩)
    (hy : c.Has tf ⟨m, j, false, [], false, [nodeTransform t q, shift y]⟩) (tf' : TF (Iso ℝ)) (time : Int) :
    frameToFrame tf' s n m time = .ok ⟨1, ![y - x, 0, 0]⟩ := by
  have e := frames_static h hf hx hy tf' time
  simp only [compose, Iso.mul_one] at e
  rw [relative (C36_node_rigid t q).1 (rigid_shift x), shift_inv_mul] at e
  exact e

/-- A camera in the frame of another one. -/
theorem parent_child (h : create tf c = .ok s) (hf : Plain c.forest) {t q} {n m i j : String} {y : ℝ}
    (hx : c.Has tf ⟨n, i, false, [], false, [nodeTransform t q]⟩)
    (hy : c.Has tf ⟨m, j, false, [], false, [nodeTransform t q, shift y]⟩) (tf' : TF (Iso ℝ)) (time : Int) :
    frameToFrame tf' s n m time = .ok ⟨1, ![y, 0, 0]⟩ := by
  have e := frames_static h hf hx hy tf' time
  simp only [compose, Iso.mul_one] at e
  rw [← Iso.mul_assoc, (C36_node_rigid t q).1.inv_mul, Iso.one_mul, shift_eq] at e
  exact e

theorem robot_created {d : Params.DataSet} (hr : (d, c) ∈ robots) (tf : TF (Iso ℝ)) : ∃ s, create tf c = .ok s :=
  let ⟨s, hs, _⟩ := C148_robot d c hr tf
  ⟨s, hs⟩

/-- **C148.** The right camera of every stereo pair of the robots looks into the same direction as the left one and is at the given
distance on its x axis, at every time and whatever the transform listener says. -/
theorem C148_stereo_pairs (c : Config (Iso ℝ)) (left right : String) (b : ℝ) (hr : (c, left, right, b) ∈ stereoPairs)
    (tf : TF (Iso ℝ)) : ∃ s, create tf c = .ok s ∧ 0 < b ∧ ∀ tf' time, frameToFrame tf' s left right time = .ok ⟨1, ![b, 0, 0]⟩ := by
  have m1 : (Params.snowboard, snowboard) ∈ robots := by simp [robots]
  have m2 : (Params.ue4, ue4) ∈ robots := by simp [robots]
  have m3 : (Params.simulator, simulator) ∈ robots := by simp [robots]
  obtain ⟨s1, h1⟩ := robot_created m1 tf
  obtain ⟨s2, h2⟩ := robot_created m2 tf
  obtain ⟨s3, h3⟩ := robot_created m3 tf
  have p1 := plain_robots _ m1
  have p2 := plain_robots _ m2
  have p3 := plain_robots _ m3
  have e1 : (0.055 : ℝ) = 0.0275 - -0.0275 := by norm_num
  have e2 : (0.1 : ℝ) = 0.05 - -0.05 := by norm_num
  simp only [stereoPairs, List.mem_cons, List.not_mem_nil, or_false, Prod.mk.injEq] at hr
  rcases hr with ⟨rfl, rfl, rfl, rfl⟩ | ⟨rfl, rfl, rfl, rfl⟩ | ⟨rfl, rfl, rfl, rfl⟩ | ⟨rfl, rfl, rfl, rfl⟩ | ⟨rfl, rfl, rfl, rfl⟩ |
    ⟨rfl, rfl, rfl, rfl⟩ | ⟨rfl, rfl, rfl, rfl⟩ | ⟨rfl, rfl, rfl, rfl⟩
  · refine ⟨s1, h1, by norm_num, fun tf' time => ?_⟩
    rw [e1]
    exact siblings h1 p1 (.below (.next (.next (declares_nested _ _ (declares_fixed _ _)))))
      (.below (.next (.next (declares_nested _ _ (.next (declares_fixed _ _)))))) tf' time
  · refine ⟨s1, h1, by norm_num, fun tf' time => ?_⟩
    rw [e1]
    exact siblings h1 p1 (.below (.next (.next (.next (declares_nested _ _ (declares_fixed _ _))))))
      (.below (.next (.next (.next (declares_nested _ _ (.next (declares_fixed _ _))))))) tf' time
  · refine ⟨s1, h1, by norm_num, fun tf' time => ?_⟩
    rw [e1]
    exact siblings h1 p1 (.below (.next (.next (.next (.next (declares_nested _ _ (declares_fixed _ _)))))))
      (.below (.next (.next (.next (.next (declares_nested _ _ (.next (declares_fixed _ _)))))))) tf' time
  · refine ⟨s1, h1, by norm_num, fun tf' time => ?_⟩
    rw [e1]
    exact siblings h1 p1 (.below (.next (.next (.next (.next (.next (declares_nested _ _ (declares_fixed _ _))))))))
      (.below (.next (.next (.next (.next (.next (declares_nested _ _ (.next (declares_fixed _ _))))))))) tf' time
  · refine ⟨s2, h2, by norm_num, fun tf' time => ?_⟩
    rw [e2]
    exact siblings h2 p2 (.below (.next (.next (declares_nested _ _ (declares_fixed _ _)))))
      (.below (.next (.next (declares_nested _ _ (.next (declares_fixed _ _)))))) tf' time
  · exact ⟨s3, h3, by norm_num, fun tf' time => parent_child h3 p3 (.below (.next (.next (declares_fixed _ _))))
      (.below (.next (.next (declares_nested _ _ (declares_fixed _ _))))) tf' time⟩
  · exact ⟨s3, h3, by norm_num, fun tf' time => parent_child h3 p3 (.below (.next (.next (.next (declares_fixed _ _)))))
      (.below (.next (.next (.next (declares_nested _ _ (declares_fixed _ _)))))) tf' time⟩
  · exact ⟨s3, h3, by norm_num, fun tf' time => parent_child h3 p3 (.below (.next (.next (.next (.next (declares_fixed _ _))))))
      (.below (.next (.next (.next (.next (declares_nested _ _ (declares_fixed _ _))))))) tf' time⟩

/-- **C148 fails for ue4_missions.** The frame that the back end is told to take for the left camera is another one: the middle of the
stereo camera, 5 cm beside it. -/
theorem C148_fails_left_camera (tf : TF (Iso ℝ)) : ∃ s, create tf ue4 = .ok s ∧
    ("stereo_factors/left_cam_frame", Params.Value.string "camera") ∈ Params.ue4.files ∧
    ∀ tf' time, frameToFrame tf' s "camera" "left_cam" time = .ok ⟨1, ![-0.05, 0, 0]⟩ := by
  have m2 : (Params.ue4, ue4) ∈ robots := by simp [robots]
  obtain ⟨s, h⟩ := robot_created m2 tf
  refine ⟨s, h, by decide +kernel, fun tf' time => ?_⟩
  exact parent_child h (plain_robots _ m2) (.below (.next (.next (declares_fixed _ _))))
    (.below (.next (.next (declares_nested _ _ (declares_fixed _ _))))) tf' time

/-- **C148 (partial: not ue4_missions).** In the other two data sets the frame that the back end is told to take for the left camera is
the left camera of a stereo pair of the robot. -/
theorem C148_left_camera_partial :
    (∃ l r b, ("stereo_factors/left_cam_frame", Params.Value.string l) ∈ Params.snowboard.files ∧ (snowboard, l, r, b) ∈ stereoPairs) ∧
    (∃ l r b, ("stereo_factors/left_cam_frame", Params.Value.string l) ∈ Params.simulator.files ∧ (simulator, l, r, b) ∈ stereoPairs) := by
  refine ⟨⟨"left_stereo_left_cam", "left_stereo_right_cam", 0.055, by decide +kernel, ?_⟩,
    ⟨"camera_front_left", "camera_front_right", 0.1, by decide +kernel, ?_⟩⟩
  · unfold stereoPairs
    exact List.mem_cons_self
  · unfold stereoPairs
    iterate 7 apply List.mem_cons_of_mem
    exact List.mem_cons_self

/-! ### The images -/

open Camera

/-- The pixel in row `i` and column `j` is in the region. -/
def Contains (r : Rect) (i j : Nat) : Prop := r.y ≤ i ∧ i < r.y + r.height ∧ r.x ≤ j ∧ j < r.x + r.width

/-- **C148.** The images of the two camera kits of the snowboard: both nodes start, and of every image with 5120 columns and 800 rows
(or more) they publish four images with their infos, each from the configured region and turned as configured (`Correct`). The regions
do not overlap and are the whole image of 5120 columns and 800 rows; the frames are frames of the robot, no two of them the same, nor
two topics. -/
theorem C148_images {α : Type} (kit : List (ImageParams ℚ)) (hk : kit = kit0 ∨ kit = kit1) :
    (∃ cs, parseConfiguration kit = .ok cs ∧ ∀ (h : Header) (a : Image α), 5120 ≤ a.width → 800 ≤ a.height →
      (split h a cs).2 = .ok () ∧
      List.Forall₂ (fun p m => ∃ ms, MotionsOf p ms ∧ Correct h a p ms m) kit (split h a cs).1) ∧
    (∀ i j : Nat, i < 800 → j < 5120 → ∃ p ∈ kit, Contains p.region i j) ∧
    (∀ i j : Nat, kit.Pairwise fun p q => ¬ (Contains p.region i j ∧ Contains q.region i j)) ∧
    (∀ p ∈ kit0 ++ kit1, Params.snowboard.hasFrame p.frameId = true) ∧
    ((kit0 ++ kit1).map (·.frameId)).Nodup ∧ ((kit0 ++ kit1).map (·.topic) ++ (kit0 ++ kit1).map (·.infoTopic)).Nodup := by
  have hreg : kit.map (·.region) = [⟨0, 0, 1280, 800⟩, ⟨1280, 0, 1280, 800⟩, ⟨2560, 0, 1280, 800⟩, ⟨3840, 0, 1280, 800⟩] := by
    rcases hk with rfl | rfl <;> rfl
  refine ⟨?_, fun i j hi hj => ?_, fun i j => ?_, by decide +kernel, by decide +kernel, by decide +kernel⟩
  · have hw : ∀ p ∈ kit, WellConfigured p := by
      have : ∀ p ∈ kit0 ++ kit1, WellConfigured p := by
        intro p hp l hl
        have : ∀ p ∈ kit0 ++ kit1, p.operations = none ∨ p.operations = some [("rotate_cw", .int 180)] := by decide +kernel
        rcases this p hp with h | h
        · rw [h] at hl
          cases hl
        · rw [h] at hl
          injection hl with hl
          subst hl
          decide +kernel
      intro p hp
      rcases hk with rfl | rfl
      · exact this p (List.mem_append_left _ hp)
      · exact this p (List.mem_append_right _ hp)
    have hr : ∀ p ∈ kit, p.region ∈ ([⟨0, 0, 1280, 800⟩, ⟨1280, 0, 1280, 800⟩, ⟨2560, 0, 1280, 800⟩, ⟨3840, 0, 1280, 800⟩] : List Rect) := by
      intro p hp
      rw [← hreg]
      exact List.mem_map_of_mem hp
    obtain ⟨cs, hcs, hall⟩ := C104_split (α := α) kit hw (fun p hp => by
      have := hr p hp
      simp only [List.mem_cons, List.not_mem_nil, or_false] at this
      rcases this with h | h | h | h <;> rw [h] <;> decide)
    refine ⟨cs, hcs, fun h a h1 h2 => hall h a fun p hp => ?_⟩
    have := hr p hp
    simp only [List.mem_cons, List.not_mem_nil, or_false] at this
    unfold InsideOf
    rcases this with h | h | h | h <;> rw [h] <;> dsimp only <;> omega
  · have : ∃ r ∈ kit.map (·.region), Contains r i j := by
      rw [hreg]
      unfold Contains
      by_cases h1 : j < 1280
      · exact ⟨⟨0, 0, 1280, 800⟩, by simp, by dsimp only; omega⟩
      by_cases h2 : j < 2560
      · exact ⟨⟨1280, 0, 1280, 800⟩, by simp, by dsimp only; omega⟩
      by_cases h3 : j < 3840
      · exact ⟨⟨2560, 0, 1280, 800⟩, by simp, by dsimp only; omega⟩
      · exact ⟨⟨3840, 0, 1280, 800⟩, by simp, by dsimp only; omega⟩
    obtain ⟨r, hr, hc⟩ := this
    obtain ⟨p, hp, rfl⟩ := List.mem_map.1 hr
    exact ⟨p, hp, hc⟩
  · have : (kit.map (·.region)).Pairwise fun p q => ¬ (Contains p i j ∧ Contains q i j) := by
      rw [hreg]
      unfold Contains
      simp only [List.pairwise_cons, List.mem_cons, List.not_mem_nil, or_false, forall_eq_or_imp, forall_eq, false_imp_iff, implies_true,
        List.Pairwise.nil, and_true]
      omega
    exact List.pairwise_map.1 this

/-- **C148.** The camera infos of ue4_missions agree with its robot: what the right camera's projection matrix maps a point to is what
the left camera's matrix maps it to after the shift into the frame of the right camera (`C148_stereo_pairs`), and the baseline that
the back end takes from it is the distance of the cameras. -/
theorem C148_ue4_info : let left := newPublishInfo (ue4Info 0); let right := newPublishInfo (ue4Info 0.1)
    (∀ X Y Z : ℚ, Z ≠ 0 → projectP right.p (X, Y, Z) = projectP left.p (X - 0.1, Y, Z)) ∧
    -right.p 3 / right.p 0 = 0.1 ∧ left.k = right.k ∧
    (ue4, "left_cam", "right_cam", ((0.1 : ℚ) : ℝ)) ∈ stereoPairs := by
  intro left right
  refine ⟨fun X Y Z hZ => ?_, by decide +kernel, rfl, ?_⟩
  · simp [projectP, left, right, newPublishInfo, ue4Info]
    ring
  · have : ((0.1 : ℚ) : ℝ) = 0.1 := by norm_num
    rw [this]
    unfold stereoPairs
    iterate 4 apply List.mem_cons_of_mem
    exact List.mem_cons_self

/-! ### The threads -/

open Schedule in
/-- **C148.** The threads of the data sets suffice: with the eight threads of their launch files, or any number from four on, in one
node or two, for every schedule and all sensor data, the callbacks come to a point where the pointcloud callback has ended or waits
for sensor data only; with one to three threads one node can stop forever. -/
theorem C148_no_deadlock (d : Params.DataSet) (hd : d ∈ Params.dataSets) (m : String × List (String × Params.Value))
    (hm : m ∈ d.missions) : ∃ p : Params.Single, (∀ cv n, 1 ≤ n → Params.single cv d.hasFrame (d.server m.2 n) =
        .ok { p with threads := n.toNat }) ∧ ∀ s2m onlyGraph : Bool,
      let cfg (split : Bool) (n : Nat) : Cfg := ⟨p.backend.imu, p.backend.registration, p.frontend.stereo, p.frontend.barometer, s2m,
        onlyGraph, split, n⟩
      (∀ split n, 4 ≤ n → ∀ data : Data, StrictMono data.T → ∀ s, Reach (cfg split n) data s →
        ∃ k s', Works (cfg split n) data k s s' ∧ (s'.phase = .idle ∨ WaitsForSensors (cfg split n) data s') ∧
          FreeFront (cfg split n) s') ∧
      (∀ n, 0 < n → n < 4 → ∃ s, Reach (cfg false n) steady s ∧ s.phase = .bias ∧ s.done < s.sensors ∧
        StuckForever (cfg false n) steady s) := by
  obtain ⟨p, t, -, -, h3, h4, h5, h6, h⟩ := Params.C148_starts d hd m hm
  refine ⟨p, fun cv n hn => (h cv n hn).1, fun s2m onlyGraph => ?_⟩
  intro cfg
  refine ⟨fun split n hn data hT s hs => ?_, fun n h0 hn => ?_⟩
  · refine C72_progress_partial (cfg split n) data hT h6 ?_ ?_ s hs
    · show (if split then 3 else 4) + p.frontend.stereo.toNat ≤ n
      rw [h3]
      cases split <;> simp <;> omega
    · intro hc
      dsimp only [cfg] at hc
      rw [h3] at hc
      cases hc
  · refine C72_fails_threads (cfg false n) h6 h0 ?_
    show ¬ 4 + p.frontend.stereo.toNat ≤ n
    rw [h3]
    simp
    omega

/-- There are eleven missions; the first one of the snowboard, and a listener that knows nothing. -/
example : Params.snowboard ∈ Params.dataSets ∧ (Params.dataSets.map fun d => d.missions.length) = [3, 1, 7] ∧
    (Params.snowboard, snowboard) ∈ robots ∧ ∃ s, create (fun _ _ _ => none) snowboard = .ok s ∧ s.body = "base_link" := by
  refine ⟨List.mem_cons_self, rfl, List.mem_cons_self, ?_⟩
  obtain ⟨s, h1, h2, -⟩ := C148_robot _ _ (List.mem_cons_self : (Params.snowboard, snowboard) ∈ robots) fun _ _ _ => none
  exact ⟨s, h1, h2⟩

end Robots

end Serpent
