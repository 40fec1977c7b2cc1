import Verif.Lemmas.EigenRos
import Verif.Props.EigenRosMessages

/-!
# C48: sequences of increments; the node `combine_transforms`
-/

namespace Serpent

namespace EigenRos

open EigenExt Matrix Utils

/-- C48. Applying transforms one after another gives the product of the pose with all of them; the orientation stays a unit
quaternion and the covariance is carried to the last frame. -/
theorem C48_sequence (p : Pose) (hp : Quat.Unit p.orientation) (l : List (Iso ℝ)) (hl : ∀ T ∈ l, Rigid T) :
    toTransform (l.foldl applyIsometry p) = l.foldl (· * ·) (toTransform p) ∧
    Quat.Unit (l.foldl applyIsometry p).orientation ∧
    (l.foldl applyIsometry p).covariance = changeCovarianceFrame6 p.covariance (l.foldl (· * ·) 1)⁻¹ ∧
    Rigid (l.foldl (· * ·) 1) := by
  induction l using List.reverseRecOn with
  | nil => exact ⟨rfl, hp, by rw [List.foldl_nil, List.foldl_nil, Iso.one_inv, changeCovarianceFrame6_one], Rigid.one⟩
  | append_singleton l T ih =>
    obtain ⟨h1, h2, h3, h4⟩ := ih (fun T h => hl T (List.mem_append_left _ h))
    have hT : Rigid T := hl T (by simp)
    simp only [List.foldl_append, List.foldl_cons, List.foldl_nil]
    obtain ⟨a1, a2, a3⟩ := applyIsometry_spec h2 hT
    refine ⟨by rw [a1, h1], a2, ?_, h4.mul hT⟩
    rw [a3, h3, changeCovarianceFrame6_mul _ hT.inv, h4.mul_inv_rev hT]

/-- C48. The same for increments given as poses. -/
theorem C48_sequence_poses (p : Pose) (hp : Quat.Unit p.orientation) (l : List Pose)
    (hl : ∀ t ∈ l, Quat.Unit t.orientation) :
    toTransform (l.foldl applyPose p) = (l.map toTransform).foldl (· * ·) (toTransform p) ∧
    Quat.Unit (l.foldl applyPose p).orientation ∧
    (l.foldl applyPose p).covariance = changeCovarianceFrame6 p.covariance ((l.map toTransform).foldl (· * ·) 1)⁻¹ := by
  have e : l.foldl applyPose p = (l.map toTransform).foldl applyIsometry p := by
    rw [List.foldl_map]; rfl
  rw [e]
  have := C48_sequence p hp (l.map toTransform) (by
    intro T hT
    obtain ⟨t, ht, rfl⟩ := List.mem_map.1 hT
    exact toTransform_rigid (hl t ht))
  exact ⟨this.1, this.2.1, this.2.2.1⟩

/-- C48. The same for a pose with a time stamp, which is kept. -/
theorem C48_stamped (p : Stamped Pose) (hp : Quat.Unit p.data.orientation) (l : List (Iso ℝ)) (hl : ∀ T ∈ l, Rigid T) :
    (l.foldl applyStamped p).stamp = p.stamp ∧
    toTransform (l.foldl applyStamped p).data = l.foldl (· * ·) (toTransform p.data) ∧
    Quat.Unit (l.foldl applyStamped p).data.orientation ∧
    (l.foldl applyStamped p).data.covariance = changeCovarianceFrame6 p.data.covariance (l.foldl (· * ·) 1)⁻¹ := by
  have e : l.foldl applyStamped p = ⟨p.stamp, l.foldl applyIsometry p.data⟩ := by
    clear hl hp
    induction l generalizing p with
    | nil => rfl
    | cons T l ih => rw [List.foldl_cons, ih]; rfl
  rw [e]
  obtain ⟨h1, h2, h3, -⟩ := C48_sequence p.data hp l hl
  exact ⟨rfl, h1, h2, h3⟩

/-- C48. Applying the identity changes nothing: same position, same covariance, same orientation (its quaternion may change
the sign). -/
theorem C48_identity (p : Pose) (hp : Quat.Unit p.orientation) :
    (applyIsometry p 1).position = p.position ∧ (applyIsometry p 1).covariance = p.covariance ∧
    toTransform (applyIsometry p 1) = toTransform p ∧
    ((applyIsometry p 1).orientation = p.orientation ∨ (applyIsometry p 1).orientation = p.orientation.neg) := by
  obtain ⟨a1, a2, a3⟩ := applyIsometry_spec hp Rigid.one
  rw [Iso.mul_one] at a1
  refine ⟨?_, by rw [a3, Iso.one_inv, changeCovarianceFrame6_one], a1, ?_⟩
  · exact congrArg Iso.t a1
  · exact Quat.eq_or_neg a2 hp (congrArg Iso.R a1)

/-- C48. Odometry: the pose is composed, the time stamp is that of the last increment, frames and twist stay. -/
theorem C48_odometry (o : Odometry) (ho : Quat.Unit o.pose.orientation) (l : List (Stamped Pose))
    (hl : ∀ t ∈ l, Quat.Unit t.data.orientation) :
    toTransform (l.foldl applyOdometry o).pose = (l.map (fun t => toTransform t.data)).foldl (· * ·) (toTransform o.pose) ∧
    (l.foldl applyOdometry o).timestamp = (l.getLast?.map (·.stamp)).getD o.timestamp ∧
    (l.foldl applyOdometry o).twist = o.twist ∧ (l.foldl applyOdometry o).frame = o.frame ∧
    (l.foldl applyOdometry o).childFrame = o.childFrame ∧
    Quat.Unit (l.foldl applyOdometry o).pose.orientation ∧
    (l.foldl applyOdometry o).pose.covariance =
      changeCovarianceFrame6 o.pose.covariance ((l.map (fun t => toTransform t.data)).foldl (· * ·) 1)⁻¹ ∧
    (o.pose.covariance = 0 → (l.foldl applyOdometry o).pose.covariance = 0) := by
  have hpose : (l.foldl applyOdometry o).pose = (l.map (·.data)).foldl applyPose o.pose := by
    clear ho hl
    induction l generalizing o with
    | nil => rfl
    | cons t l ih => rw [List.foldl_cons, ih]; rfl
  have hcov := (C48_sequence_poses o.pose ho (l.map (·.data)) (by
    intro t ht
    obtain ⟨u, hu, rfl⟩ := List.mem_map.1 ht
    exact hl u hu)).2.2
  rw [← hpose, List.map_map] at hcov
  suffices h : _ ∧ _ ∧ _ ∧ _ ∧ _ ∧ _ by
    obtain ⟨h1, h2, h3, h4, h5, h6⟩ := h
    exact ⟨h1, h2, h3, h4, h5, h6, hcov, fun h => by rw [hcov, h, changeCovarianceFrame6_zero]⟩
  clear hpose hcov
  induction l using List.reverseRecOn with
  | nil => exact ⟨rfl, rfl, rfl, rfl, rfl, ho⟩
  | append_singleton l T ih =>
    obtain ⟨h1, h2, h3, h4, h5, h6⟩ := ih (fun t h => hl t (List.mem_append_left _ h))
    have hT : Quat.Unit T.data.orientation := hl T (by simp)
    obtain ⟨a1, a2, a3⟩ := applyIsometry_spec h6 (toTransform_rigid hT)
    simp only [List.foldl_append, List.foldl_cons, List.foldl_nil, List.map_append, List.map_cons, List.map_nil]
    refine ⟨?_, ?_, h3, h4, h5, a2⟩
    · rw [← h1, ← a1]; rfl
    · rw [List.getLast?_append]; rfl

/-! ### The node -/

/-- The time stamp of an increment. -/
def Increment.time : Increment → Int
  | .transform msg => msg.header.stamp
  | .pose msg => msg.header.stamp
  | .poseCov msg => msg.header.stamp

/-- Position and quaternion of an increment. -/
def Increment.position : Increment → Fin 3 → ℝ
  | .transform msg => ![msg.transform.translation.x, msg.transform.translation.y, msg.transform.translation.z]
  | .pose msg => ![msg.pose.position.x, msg.pose.position.y, msg.pose.position.z]
  | .poseCov msg => ![msg.pose.pose.position.x, msg.pose.pose.position.y, msg.pose.pose.position.z]

/-- The quaternion of an increment. -/
def Increment.quaternion : Increment → QuaternionMsg
  | .transform msg => msg.transform.rotation
  | .pose msg => msg.pose.orientation
  | .poseCov msg => msg.pose.pose.orientation

/-- The rigid transform of a position and a quaternion in a message. -/
def isoOf (q : QuaternionMsg) (p : Fin 3 → ℝ) : Iso ℝ := ⟨(⟨q.w, q.x, q.y, q.z⟩ : Quat).toMatrix, p⟩

/-- The transform of an increment. -/
def Increment.iso (m : Increment) : Iso ℝ := isoOf m.quaternion m.position

/-- The transform of a pose message. -/
def PoseMsg.iso (m : PoseMsg) : Iso ℝ := isoOf m.orientation ![m.position.x, m.position.y, m.position.z]

/-- A message with a unit quaternion and, if it has a covariance, an array of 36 numbers. -/
def Increment.Valid (m : Increment) : Prop :=
  m.quaternion.w ^ 2 + m.quaternion.x ^ 2 + m.quaternion.y ^ 2 + m.quaternion.z ^ 2 = 1 ∧
  match m with
  | .poseCov msg => msg.pose.covariance.length = 36
  | _ => True

theorem Increment.value_spec {m : Increment} (h : m.Valid) :
    ∃ t, m.value = .ok t ∧ t.stamp = m.time ∧ toTransform t.data = m.iso ∧ Quat.Unit t.data.orientation := by
  cases m with
  | transform msg => exact ⟨_, rfl, rfl, rfl, h.1⟩
  | pose msg => exact ⟨_, rfl, rfl, rfl, h.1⟩
  | poseCov msg =>
    obtain ⟨C, hC⟩ := RowMajor.exists (m := 6) (n := 6) h.2
    refine ⟨⟨msg.header.stamp, { fromPose msg.pose.pose Pose.default with covariance := C.submatrix rosOrder rosOrder }⟩, ?_,
      rfl, rfl, h.1⟩
    unfold Increment.value fromPoseCovStamped fromPoseCov fromFixedArray
    dsimp only
    rw [hC.read, Outcome.bind_ok, reorder_six]
    rfl

theorem toPose_iso (p : Pose) : (toPose p).iso = toTransform p := by
  unfold PoseMsg.iso toPose isoOf toTransform
  refine congrArg _ ?_
  funext i; fin_cases i <;> rfl

/-- What one odometry message and one path message must be after the increments `l` (not empty). -/
structure Shows (l : List Increment) (o : OdometryMsg) (path : PathMsg) : Prop where
  /-- one pose for each increment -/
  length : path.poses.length = l.length
  /-- pose `k` is the product of the increments up to `k`, with the time of increment `k` -/
  poses : ∀ k (hk : k < l.length) m, path.poses[k]? = some m →
    m.pose.iso = ((l.take (k + 1)).map Increment.iso).foldl (· * ·) 1 ∧ m.header.stamp = (l[k]).time
  /-- the path is in the frame `map` -/
  frame : path.header.frameId = "map"
  pathTime : l.getLast?.map Increment.time = some path.header.stamp
  /-- the odometry is the product of all increments -/
  odometry : o.pose.pose.iso = (l.map Increment.iso).foldl (· * ·) 1
  odometryTime : l.getLast?.map Increment.time = some o.header.stamp
  /-- and claims to be exact -/
  covariance : RosCovariance o.pose.covariance 0

/-- What holds after the increments `l`. -/
structure CombineInv (l : List Increment) (s : Combine) : Prop where
  unit : Quat.Unit s.odometry.pose.orientation
  product : toTransform s.odometry.pose = (l.map Increment.iso).foldl (· * ·) 1
  cov : s.odometry.pose.covariance = 0
  length : s.path.poses.length = l.length
  poses : ∀ k (hk : k < l.length) m, s.path.poses[k]? = some m →
    m.pose.iso = ((l.take (k + 1)).map Increment.iso).foldl (· * ·) 1 ∧ m.header.stamp = (l[k]).time
  frame : s.path.header.frameId = "map"
  count : s.published.length = l.length
  shows : ∀ k (_ : k < l.length) o path, s.published[k]? = some (o, path) → Shows (l.take (k + 1)) o path

theorem combine_step {l : List Increment} {s : Combine} (h : CombineInv l s) {m : Increment} (hm : m.Valid) :
    ∃ s', combineCallback s m = .ok s' ∧ CombineInv (l ++ [m]) s' := by
  obtain ⟨t, ht, htime, hiso, hunit⟩ := Increment.value_spec hm
  obtain ⟨a1, a2, a3⟩ := applyIsometry_spec h.unit (toTransform_rigid hunit)
  obtain ⟨a, b, hmsg, ra, rb, -⟩ := C46_odometry (applyOdometry s.odometry t) .default OdometryMsg.empty rfl rfl
  unfold combineCallback combine
  rw [ht, Outcome.bind_ok]
  dsimp only
  rw [hmsg, Outcome.bind_ok]
  have hprod : toTransform (applyOdometry s.odometry t).pose = ((l ++ [m]).map Increment.iso).foldl (· * ·) 1 := by
    change toTransform (applyIsometry _ _) = _
    rw [a1, h.product, hiso, List.map_append, List.foldl_append]
    rfl
  have hcov : (applyOdometry s.odometry t).pose.covariance = 0 := by
    change (applyIsometry _ _).covariance = 0
    rw [a3, h.cov, changeCovarianceFrame6_zero]
  have hlen : (s.path.poses ++ [toPoseStamped PoseStampedMsg.empty
      ⟨(applyOdometry s.odometry t).timestamp, (applyOdometry s.odometry t).pose⟩]).length = (l ++ [m]).length := by
    simp [h.length]
  have hposes : ∀ k (hk : k < (l ++ [m]).length) x, (s.path.poses ++ [toPoseStamped PoseStampedMsg.empty
      ⟨(applyOdometry s.odometry t).timestamp, (applyOdometry s.odometry t).pose⟩])[k]? = some x →
      x.pose.iso = (((l ++ [m]).take (k + 1)).map Increment.iso).foldl (· * ·) 1 ∧ x.header.stamp = ((l ++ [m])[k]).time := by
    intro k hk x hx
    by_cases hkl : k < l.length
    · rw [List.getElem?_append_left (by rw [h.length]; exact hkl)] at hx
      have := h.poses k hkl x hx
      rw [List.take_append_of_le_length (by omega), List.getElem_append_left hkl]
      exact this
    · have hk' : k = l.length := by simp at hk; omega
      subst hk'
      rw [List.getElem?_append_right (by rw [h.length])] at hx
      rw [h.length, Nat.sub_self] at hx
      have hx' := Option.some.inj hx
      subst hx'
      constructor
      · rw [List.take_of_length_le (by simp), ← hprod]
        exact toPose_iso _
      · simp [toPoseStamped, applyOdometry, htime]
  refine ⟨_, rfl, ?_⟩
  refine ⟨a2, hprod, hcov, hlen, hposes, h.frame, by simp [h.count], ?_⟩
  intro k hk o path hop
  by_cases hkl : k < l.length
  · rw [List.getElem?_append_left (by rw [h.count]; exact hkl)] at hop
    rw [List.take_append_of_le_length (by omega)]
    exact h.shows k hkl o path hop
  · have hk' : k = l.length := by simp at hk; omega
    subst hk'
    rw [List.getElem?_append_right (by rw [h.count]), h.count, Nat.sub_self] at hop
    have hx' := Option.some.inj hop
    obtain ⟨rfl, rfl⟩ := Prod.mk.inj hx'
    rw [List.take_of_length_le (by simp)]
    refine ⟨hlen, hposes, h.frame, by simp [htime], ?_, ?_, ?_⟩
    · rw [← hprod]; exact toPose_iso _
    · simp [applyOdometry, htime]
    · rw [← hcov]; exact ra

/-- C48. The node: after any sequence of increments (of any of the three message types) it has published one odometry and one
path message for each increment; the path published with increment `k` has one pose for each increment so far, the products of
the increments, and the odometry is the last of them. -/
theorem C48_node (l : List Increment) (hl : ∀ m ∈ l, m.Valid) :
    ∃ s, l.foldlM combineCallback Combine.init = .ok s ∧ s.published.length = l.length ∧
      ∀ k (_ : k < l.length) o path, s.published[k]? = some (o, path) → Shows (l.take (k + 1)) o path := by
  suffices h : ∃ s, l.foldlM combineCallback Combine.init = .ok s ∧ CombineInv l s by
    obtain ⟨s, hs, hi⟩ := h
    exact ⟨s, hs, hi.count, hi.shows⟩
  induction l using List.reverseRecOn with
  | nil =>
    refine ⟨_, rfl, ⟨Quat.Unit.id, ?_, rfl, rfl, by simp, rfl, rfl, by simp⟩⟩
    change toTransform Pose.default = 1
    unfold toTransform Pose.default
    dsimp only
    rw [Quat.toMatrix_id]
    rfl
  | append_singleton l m ih =>
    obtain ⟨s, hs, hi⟩ := ih (fun x hx => hl x (List.mem_append_left _ hx))
    obtain ⟨s', hs', hi'⟩ := combine_step hi (hl m (by simp))
    refine ⟨s', ?_, hi'⟩
    rw [List.foldlM_append, hs, Outcome.bind_ok]
    change combineCallback s m >>= _ = _
    rw [hs']
    rfl

/-- Two increments: half a turn about z and one metre forward, twice. -/
def turnMsg : Increment := .transform ⟨⟨0, 5, "a"⟩, "b", ⟨⟨1, 0, 0⟩, ⟨0, 0, 1, 0⟩⟩⟩

example : turnMsg.Valid ∧ turnMsg.iso.apply ![1, 0, 0] = ![0, 0, 0] := by
  constructor
  · refine ⟨?_, trivial⟩
    simp [turnMsg, Increment.quaternion]
  · funext i
    fin_cases i <;>
      norm_num [turnMsg, Increment.iso, isoOf, Increment.quaternion, Increment.position, Iso.apply, Quat.toMatrix]

end EigenRos

end Serpent
