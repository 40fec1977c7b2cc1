import Verif.Model.Metrics
import Verif.Props.EigenRosMessages

/-!
# C111: the metrics node
-/

namespace Serpent

namespace Metrics

open EigenRos EigenExt

/-! ### Specification -/

/-- A message that was received. -/
inductive Message where
  | path (poses : List PoseMsg)
  | pose (msg : PoseCovMsg)
  | registration (msg : PoseCovMsg)

/-- What the node does when a message is received. -/
def Message.events : Message → List Event
  | .path p => [.path p]
  | .pose m => [.poseBegin, .poseEnd m]
  | .registration m => [.registration m]

/-- The paths, poses and registrations that were received. -/
def paths (h : List Message) : List (List PoseMsg) := h.filterMap fun | .path p => some p | _ => none
def poses (h : List Message) : List PoseCovMsg := h.filterMap fun | .pose m => some m | _ => none
def registrations (h : List Message) : List PoseCovMsg := h.filterMap fun | .registration m => some m | _ => none

/-- The node after messages were received and handled. -/
def after (h : List Message) : Node := start.run (h.flatMap Message.events)

/-- The second to last element. -/
def secondLast {α : Type} (l : List α) : Option α := l.dropLast.getLast?

/-- The norm of the motion from pose `b` to pose `a`. -/
noncomputable def motionNorm (a b : PoseMsg) : ℝ := Real.sqrt (∑ i, (fromPoint a.position i - fromPoint b.position i) ^ 2)

/-- The rotation matrix of a pose. -/
def rotation (a : PoseMsg) : Matrix (Fin 3) (Fin 3) ℝ := (fromQuaternion a.orientation).toMatrix

/-- Both orientations are unit quaternions, in the same half of the sphere. -/
def SameHalf (a b : PoseMsg) : Prop :=
  Quat.Unit (fromQuaternion a.orientation) ∧ Quat.Unit (fromQuaternion b.orientation) ∧
    0 ≤ a.orientation.x * b.orientation.x + a.orientation.y * b.orientation.y + a.orientation.z * b.orientation.z +
      a.orientation.w * b.orientation.w

/-- `x` and `i` are the greatest entry of `l` and its first position if an entry is positive, and 0 and -1 otherwise. -/
def Outlier (l : List ℝ) (x i : ℝ) : Prop :=
  ((∀ y ∈ l, y ≤ 0) → x = 0 ∧ i = -1) ∧
  ((∃ y ∈ l, 0 < y) → ∃ k : Nat, i = k ∧ l[k]? = some x ∧ (∀ y ∈ l, y ≤ x) ∧ ∀ (j : Nat) (y : ℝ), j < k → l[j]? = some y → y < x)

/-! ### Proofs -/

theorem after_snoc (h : List Message) (m : Message) : after (h ++ [m]) = (after h).run m.events := by
  unfold after Node.run
  rw [List.flatMap_append, List.foldl_append]
  simp

/-- The attributes are the last messages. -/
theorem after_spec (h : List Message) :
    (after h).path = (paths h).getLast? ∧ (after h).registration = (registrations h).getLast? ∧
    (after h).curr = (poses h).getLast? ∧ (after h).prev = secondLast (poses h) := by
  induction h using List.reverseRecOn with
  | nil => exact ⟨rfl, rfl, rfl, rfl⟩
  | append_singleton h m ih =>
    obtain ⟨h1, h2, h3, h4⟩ := ih
    rw [after_snoc]
    unfold paths registrations poses at *
    simp only [List.filterMap_append]
    cases m with
    | path p => simp [Message.events, Node.run, Node.step, h2, h3, h4]
    | pose p => simp [Message.events, Node.run, Node.step, h1, h2, h3, secondLast]
    | registration p => simp [Message.events, Node.run, Node.step, h1, h3, h4]

theorem outlierLoop_spec (best : ℝ × Int) (i : Nat) (l : List ℝ) :
    (outlierLoop best i l = best ∧ ∀ y ∈ l, y ≤ best.1) ∨
    ∃ k : Nat, (outlierLoop best i l).2 = ((i + k : Nat) : Int) ∧ l[k]? = some (outlierLoop best i l).1 ∧
      best.1 < (outlierLoop best i l).1 ∧ (∀ y ∈ l, y ≤ (outlierLoop best i l).1) ∧
      ∀ (j : Nat) (y : ℝ), j < k → l[j]? = some y → y < (outlierLoop best i l).1 := by
  induction l generalizing best i with
  | nil => exact .inl ⟨rfl, by simp⟩
  | cons x xs ih =>
    rw [outlierLoop]
    by_cases hx : x > best.1
    · rw [if_pos hx]
      rcases ih (x, (i : Int)) (i + 1) with ⟨e, hy⟩ | ⟨k, e1, e2, e3, e4, e5⟩
      · refine .inr ⟨0, ?_, ?_, ?_, ?_, fun j y hj => absurd hj (by omega)⟩
        · rw [e]; simp
        · rw [e]; rfl
        · rw [e]; exact hx
        · rw [e]
          intro y hy'
          rcases List.mem_cons.1 hy' with rfl | h
          · exact le_rfl
          · exact hy y h
      · refine .inr ⟨k + 1, ?_, ?_, hx.trans e3, ?_, ?_⟩
        · rw [e1]; congr 1; omega
        · rw [List.getElem?_cons_succ]; exact e2
        · intro y hy'
          rcases List.mem_cons.1 hy' with rfl | h
          · exact e3.le
          · exact e4 y h
        · intro j y hj hy
          cases j with
          | zero => rw [List.getElem?_cons_zero] at hy; rw [← Option.some.inj hy]; exact e3
          | succ j => rw [List.getElem?_cons_succ] at hy; exact e5 j y (by omega) hy
    · rw [if_neg hx]
      rcases ih best (i + 1) with ⟨e, hy⟩ | ⟨k, e1, e2, e3, e4, e5⟩
      · refine .inl ⟨e, ?_⟩
        intro y hy'
        rcases List.mem_cons.1 hy' with rfl | h
        · exact not_lt.1 hx
        · exact hy y h
      · refine .inr ⟨k + 1, ?_, ?_, e3, ?_, ?_⟩
        · rw [e1]; congr 1; omega
        · rw [List.getElem?_cons_succ]; exact e2
        · intro y hy'
          rcases List.mem_cons.1 hy' with rfl | h
          · exact (not_lt.1 hx).trans e3.le
          · exact e4 y h
        · intro j y hj hy
          cases j with
          | zero => rw [List.getElem?_cons_zero] at hy; rw [← Option.some.inj hy]; exact (not_lt.1 hx).trans_lt e3
          | succ j => rw [List.getElem?_cons_succ] at hy; exact e5 j y (by omega) hy

theorem outlier_ok (l : List ℝ) : Outlier l (outlierLoop (0, -1) 0 l).1 ((outlierLoop (0, -1) 0 l).2 : ℝ) := by
  rcases outlierLoop_spec (0, -1) 0 l with ⟨e, hy⟩ | ⟨k, e1, e2, e3, e4, e5⟩
  · rw [e]
    exact ⟨fun _ => ⟨rfl, by norm_num⟩, fun ⟨y, h, hp⟩ => absurd (hy y h) (not_le.2 hp)⟩
  · refine ⟨fun h => ?_, fun _ => ⟨k, ?_, e2, e4, e5⟩⟩
    · exact absurd (h _ (List.mem_of_getElem? e2)) (not_le.2 e3)
    · rw [e1]
      push_cast
      ring

theorem relPose_norm (a b : PoseMsg) : (relPose a b).1 = motionNorm a b := by
  unfold motionNorm relPose
  rw [Fin.sum_univ_three]
  rfl

theorem relPose_angle {a b : PoseMsg} (h : SameHalf a b) : (relPose a b).2 = rotationAngle (rotation a * (rotation b).transpose) := by
  obtain ⟨ha, hb, hd⟩ := h
  set qa := fromQuaternion a.orientation with hqa
  set qb := fromQuaternion b.orientation with hqb
  have hu : Quat.Unit (qa * qb.conj) := ha.mul hb.conj
  have hw : (qa * qb.conj).w = a.orientation.x * b.orientation.x + a.orientation.y * b.orientation.y +
      a.orientation.z * b.orientation.z + a.orientation.w * b.orientation.w := by
    rw [Quat.mul_w]
    simp only [Quat.conj, hqa, hqb, fromQuaternion]
    ring
  have ht : (qa.toMatrix * qb.toMatrix.transpose).trace = 4 * (qa * qb.conj).w ^ 2 - 1 := by
    rw [← Quat.toMatrix_conj, ← Quat.toMatrix_mul ha hb.conj, Quat.toMatrix_trace hu]
  have h1 : (qa * qb.conj).w ≤ 1 := by
    unfold Quat.Unit at hu
    nlinarith [sq_nonneg (qa * qb.conj).x, sq_nonneg (qa * qb.conj).y, sq_nonneg (qa * qb.conj).z]
  have h0 : 0 ≤ (qa * qb.conj).w := by rw [hw]; exact hd
  show 2 * Real.arccos (min 1 _) = Real.arccos (((qa.toMatrix * qb.toMatrix.transpose).trace - 1) / 2)
  rw [ht, ← hw, min_eq_right h1]
  have hc := Real.cos_arccos (by linarith : -1 ≤ (qa * qb.conj).w) h1
  rw [show (4 * (qa * qb.conj).w ^ 2 - 1 - 1) / 2 = Real.cos (2 * Real.arccos (qa * qb.conj).w) by
    rw [Real.cos_two_mul, hc]; ring]
  refine (Real.arccos_cos (by have := Real.arccos_nonneg (qa * qb.conj).w; linarith) ?_).symm
  have := Real.arccos_le_pi_div_two.2 h0
  linarith

theorem index_ok {α : Type} {l : List α} {i : Nat} {x : α} (h : l[i]? = some x) : index l i = .ok x := by
  unfold index; rw [h]

theorem indexFromEnd_one {α : Type} {l : List α} {x : α} (h : l.getLast? = some x) : indexFromEnd l 1 = .ok x := by
  have hl : 1 ≤ l.length := by
    cases l with
    | nil => cases h
    | cons => simp
  unfold indexFromEnd
  rw [if_pos hl]
  apply index_ok
  rw [← h, List.getLast?_eq_getElem?]

theorem indexFromEnd_two {α : Type} {l : List α} {x : α} (h : secondLast l = some x) : indexFromEnd l 2 = .ok x := by
  unfold secondLast at h
  rw [List.getLast?_eq_getElem?] at h
  have hl : 2 ≤ l.length := by
    have := (List.getElem?_eq_some_iff.1 h).1
    rw [List.length_dropLast] at this
    omega
  unfold indexFromEnd
  rw [if_pos hl]
  apply index_ok
  rw [List.length_dropLast] at h
  rw [List.getElem?_dropLast, if_pos (by omega)] at h
  rw [← h]
  congr 1

theorem secondLast_some {α : Type} {l : List α} (h : 2 ≤ l.length) : ∃ x, secondLast l = some x := by
  unfold secondLast
  cases e : l.dropLast.getLast? with
  | some x => exact ⟨x, rfl⟩
  | none =>
    rw [List.getLast?_eq_none_iff] at e
    have := congrArg List.length e
    rw [List.length_dropLast] at this
    simp at this
    omega

/-- The six entries that are read are the diagonal. -/
theorem diag_ok {a : List ℝ} {M : Matrix (Fin 6) (Fin 6) ℝ} (hM : RowMajor a M) :
    index a 0 = .ok (M 0 0) ∧ index a 7 = .ok (M 1 1) ∧ index a 14 = .ok (M 2 2) ∧ index a 21 = .ok (M 3 3) ∧
    index a 28 = .ok (M 4 4) ∧ index a 35 = .ok (M 5 5) :=
  ⟨index_ok (hM.2 0 0), index_ok (hM.2 1 1), index_ok (hM.2 2 2), index_ok (hM.2 3 3), index_ok (hM.2 4 4), index_ok (hM.2 5 5)⟩

/-- C111 (partial). After every sequence of messages that were handled, when the last path (if any) has two poses and the last
registration (if any) a covariance of 36 entries, the twelve metrics are published, under their names in a fixed order:
the six diagonal entries of the matrix in the last registration, in order; the greatest entry of the covariance of the last pose and
its position, or 0 and -1 if none is positive; the norm and the angle of the motion between the last two poses of the last path; the
norm and the angle of the motion between the last two poses received. A metric for which messages are missing is -1. Angles are those
of the motion when the two quaternions are in the same half of the sphere. Missing: the names of the diagonal entries
(`C111_fails_labels`), other quaternions (`C111_fails_angle`), metrics computed while a pose is handled (`C111_fails_torn`), paths with
fewer than two poses (`C111_short_path`). -/
theorem C111_metrics_partial (h : List Message) (hp : ∀ p, (paths h).getLast? = some p → 2 ≤ p.length)
    (hr : ∀ r, (registrations h).getLast? = some r → r.covariance.length = 36) :
    ∃ v : Name → ℝ, getMetrics (after h) = .ok ([.registrationVarRx, .registrationVarRy, .registrationVarRz, .registrationVarTx,
        .registrationVarTy, .registrationVarTz, .varianceOutlierMax, .varianceOutlierIdx, .consistentRelativePoseNorm,
        .consistentRelativePoseAngl, .instantRelativePoseNorm, .instantRelativePoseAngl].map (fun n => (n, v n))) ∧
      (registrations h = [] → v .registrationVarRx = -1 ∧ v .registrationVarRy = -1 ∧ v .registrationVarRz = -1 ∧
        v .registrationVarTx = -1 ∧ v .registrationVarTy = -1 ∧ v .registrationVarTz = -1) ∧
      (∀ r (M : Matrix (Fin 6) (Fin 6) ℝ), (registrations h).getLast? = some r → RowMajor r.covariance M →
        v .registrationVarRx = M 0 0 ∧ v .registrationVarRy = M 1 1 ∧ v .registrationVarRz = M 2 2 ∧
        v .registrationVarTx = M 3 3 ∧ v .registrationVarTy = M 4 4 ∧ v .registrationVarTz = M 5 5) ∧
      (poses h = [] → v .varianceOutlierMax = -1 ∧ v .varianceOutlierIdx = -1) ∧
      (∀ p, (poses h).getLast? = some p → Outlier p.covariance (v .varianceOutlierMax) (v .varianceOutlierIdx)) ∧
      (paths h = [] → v .consistentRelativePoseNorm = -1 ∧ v .consistentRelativePoseAngl = -1) ∧
      (∀ p a b, (paths h).getLast? = some p → p.getLast? = some a → secondLast p = some b →
        v .consistentRelativePoseNorm = motionNorm a b ∧
        (SameHalf a b → v .consistentRelativePoseAngl = rotationAngle (rotation a * (rotation b).transpose))) ∧
      ((poses h).length < 2 → v .instantRelativePoseNorm = -1 ∧ v .instantRelativePoseAngl = -1) ∧
      (∀ a b, (poses h).getLast? = some a → secondLast (poses h) = some b →
        v .instantRelativePoseNorm = motionNorm a.pose b.pose ∧
        (SameHalf a.pose b.pose → v .instantRelativePoseAngl = rotationAngle (rotation a.pose * (rotation b.pose).transpose))) := by
  obtain ⟨h1, h2, h3, h4⟩ := after_spec h
  have hd : ∃ x0 x1 x2 x3 x4 x5, varDiag (after h) = .ok [x0, x1, x2, x3, x4, x5] ∧
      (registrations h = [] → x0 = -1 ∧ x1 = -1 ∧ x2 = -1 ∧ x3 = -1 ∧ x4 = -1 ∧ x5 = -1) ∧
      ∀ r (M : Matrix (Fin 6) (Fin 6) ℝ), (registrations h).getLast? = some r → RowMajor r.covariance M →
        x0 = M 0 0 ∧ x1 = M 1 1 ∧ x2 = M 2 2 ∧ x3 = M 3 3 ∧ x4 = M 4 4 ∧ x5 = M 5 5 := by
    unfold varDiag
    rw [h2]
    cases hreg : (registrations h).getLast? with
    | none => exact ⟨_, _, _, _, _, _, rfl, fun _ => ⟨rfl, rfl, rfl, rfl, rfl, rfl⟩, fun r M e => by cases e⟩
    | some r =>
      obtain ⟨M, hM⟩ := RowMajor.exists (m := 6) (n := 6) (hr r hreg)
      refine ⟨M 0 0, M 1 1, M 2 2, M 3 3, M 4 4, M 5 5, ?_, fun e => ?_, fun r' M' e hM' => ?_⟩
      · dsimp only
        obtain ⟨i0, i1, i2, i3, i4, i5⟩ := diag_ok hM
        rw [i0, Outcome.bind_ok, i1, Outcome.bind_ok, i2, Outcome.bind_ok, i3, Outcome.bind_ok, i4, Outcome.bind_ok, i5, Outcome.bind_ok]
      · rw [e] at hreg; cases hreg
      · obtain rfl := Option.some.inj e
        have : M = M' := by
          funext i j
          exact Option.some.inj ((hM.2 i j).symm.trans (hM'.2 i j))
        subst this
        exact ⟨rfl, rfl, rfl, rfl, rfl, rfl⟩
  have hc : ∃ c, consistentPose (after h) = .ok c ∧ (paths h = [] → c = (-1, -1)) ∧
      ∀ p a b, (paths h).getLast? = some p → p.getLast? = some a → secondLast p = some b → c = relPose a b := by
    unfold consistentPose
    rw [h1]
    cases hpath : (paths h).getLast? with
    | none => exact ⟨_, rfl, fun _ => rfl, fun p a b e => by cases e⟩
    | some p =>
      have hl := hp p hpath
      obtain ⟨b, hb⟩ := secondLast_some hl
      obtain ⟨a, ha⟩ : ∃ a, p.getLast? = some a := by
        cases e : p.getLast? with
        | some a => exact ⟨a, rfl⟩
        | none => rw [List.getLast?_eq_none_iff] at e; rw [e] at hl; simp at hl
      refine ⟨relPose a b, ?_, fun e => ?_, fun p' a' b' e ha' hb' => ?_⟩
      · dsimp only
        rw [indexFromEnd_one ha, Outcome.bind_ok, indexFromEnd_two hb, Outcome.bind_ok]
      · rw [e] at hpath; cases hpath
      · obtain rfl := Option.some.inj e
        obtain rfl := Option.some.inj (ha.symm.trans ha')
        obtain rfl := Option.some.inj (hb.symm.trans hb')
        rfl
  obtain ⟨x0, x1, x2, x3, x4, x5, ed, hd1, hd2⟩ := hd
  obtain ⟨c, ec, hc1, hc2⟩ := hc
  refine ⟨fun
    | .registrationVarRx => x0 | .registrationVarRy => x1 | .registrationVarRz => x2
    | .registrationVarTx => x3 | .registrationVarTy => x4 | .registrationVarTz => x5
    | .varianceOutlierMax => (varOutlier (after h)).1 | .varianceOutlierIdx => (varOutlier (after h)).2
    | .consistentRelativePoseNorm => c.1 | .consistentRelativePoseAngl => c.2
    | .instantRelativePoseNorm => (instantPose (after h)).1 | .instantRelativePoseAngl => (instantPose (after h)).2,
    ?_, hd1, hd2, ?_, ?_, ?_, ?_, ?_, ?_⟩
  · unfold getMetrics
    rw [ed, Outcome.bind_ok, ec, Outcome.bind_ok]
    rfl
  · intro e
    show (varOutlier (after h)).1 = -1 ∧ (varOutlier (after h)).2 = -1
    unfold varOutlier
    rw [h3, e]
    exact ⟨rfl, rfl⟩
  · intro p e
    show Outlier p.covariance (varOutlier (after h)).1 (varOutlier (after h)).2
    unfold varOutlier
    rw [h3, e]
    exact outlier_ok p.covariance
  · intro e
    show c.1 = -1 ∧ c.2 = -1
    rw [hc1 e]
    exact ⟨rfl, rfl⟩
  · intro p a b e ha hb
    show c.1 = _ ∧ (SameHalf a b → c.2 = _)
    rw [hc2 p a b e ha hb]
    exact ⟨relPose_norm a b, relPose_angle⟩
  · intro hlen
    show (instantPose (after h)).1 = -1 ∧ (instantPose (after h)).2 = -1
    have : secondLast (poses h) = none := by
      unfold secondLast
      rw [List.getLast?_eq_none_iff]
      apply List.eq_nil_of_length_eq_zero
      rw [List.length_dropLast]
      omega
    unfold instantPose
    rw [h4, this]
    cases (after h).curr <;> exact ⟨rfl, rfl⟩
  · intro a b ha hb
    show (instantPose (after h)).1 = _ ∧ (SameHalf a.pose b.pose → (instantPose (after h)).2 = _)
    unfold instantPose
    rw [h3, h4, ha, hb]
    exact ⟨relPose_norm _ _, relPose_angle⟩

/-- C111. A path with fewer than two poses ends the node at the next computation. -/
theorem C111_short_path (h : List Message) (p : List PoseMsg) (hp : (paths h).getLast? = some p) (hl : p.length < 2)
    (hr : ∀ r, (registrations h).getLast? = some r → r.covariance.length = 36) : getMetrics (after h) = .throws := by
  obtain ⟨h1, h2, -⟩ := after_spec h
  have hd : ∃ d, varDiag (after h) = .ok d := by
    unfold varDiag
    rw [h2]
    cases hreg : (registrations h).getLast? with
    | none => exact ⟨_, rfl⟩
    | some r =>
      obtain ⟨M, hM⟩ := RowMajor.exists (m := 6) (n := 6) (hr r hreg)
      dsimp only
      obtain ⟨i0, i1, i2, i3, i4, i5⟩ := diag_ok hM
      rw [i0, Outcome.bind_ok, i1, Outcome.bind_ok, i2, Outcome.bind_ok, i3, Outcome.bind_ok, i4, Outcome.bind_ok, i5, Outcome.bind_ok]
      exact ⟨_, rfl⟩
  obtain ⟨d, hd⟩ := hd
  have hc : consistentPose (after h) = .throws := by
    unfold consistentPose
    rw [h1, hp]
    match p, hl with
    | [], _ => rfl
    | [_], _ => rfl
  unfold getMetrics
  rw [hd, Outcome.bind_ok, hc, Outcome.bind_throws]

/-- C111. A registration whose covariance is too short ends the node at the next computation. -/
theorem C111_short_covariance (h : List Message) (r : PoseCovMsg) (hr : (registrations h).getLast? = some r)
    (hl : r.covariance.length < 36) : getMetrics (after h) = .throws := by
  obtain ⟨-, h2, -⟩ := after_spec h
  have hi : ∀ k, index r.covariance k = .throws ∨ ∃ x, index r.covariance k = .ok x := by
    intro k
    unfold index
    cases r.covariance[k]? with
    | none => exact .inl rfl
    | some x => exact .inr ⟨x, rfl⟩
  have hlast : index r.covariance 35 = .throws := by
    unfold index
    rw [List.getElem?_eq_none (by omega)]
  have hd : varDiag (after h) = .throws := by
    unfold varDiag
    rw [h2, hr]
    dsimp only
    rcases hi 0 with e | ⟨_, e⟩ <;> rw [e]
    · rw [Outcome.bind_throws]
    rw [Outcome.bind_ok]
    rcases hi 7 with e | ⟨_, e⟩ <;> rw [e]
    · rw [Outcome.bind_throws]
    rw [Outcome.bind_ok]
    rcases hi 14 with e | ⟨_, e⟩ <;> rw [e]
    · rw [Outcome.bind_throws]
    rw [Outcome.bind_ok]
    rcases hi 21 with e | ⟨_, e⟩ <;> rw [e]
    · rw [Outcome.bind_throws]
    rw [Outcome.bind_ok]
    rcases hi 28 with e | ⟨_, e⟩ <;> rw [e]
    · rw [Outcome.bind_throws]
    rw [Outcome.bind_ok, hlast, Outcome.bind_throws]
  unfold getMetrics
  rw [hd, Outcome.bind_throws]

/-! ### Where it fails -/

/-- A pose at the origin. -/
def poseAt (x : ℝ) (q : QuaternionMsg) : PoseCovMsg := ⟨⟨⟨x, 0, 0⟩, q⟩, List.replicate 36 0⟩

/-- C111, false for the names of the variances: when the last registration was written by the registration node (translation before
rotation, `RosCovariance`), each metric named as the variance of a rotation is that of a translation, and the other way round. Here the
variance of the translation along x is 1 and all others are 0. -/
theorem C111_fails_labels : ∃ (m : PoseCovMsg) (C : Matrix (Fin 6) (Fin 6) ℝ) (l : List (Name × ℝ)), RosCovariance m.covariance C ∧
    getMetrics (after [.registration m]) = .ok l ∧ C 3 3 = 1 ∧ (∀ i j, (i, j) ≠ (3, 3) → C i j = 0) ∧
    (.registrationVarRx, 1) ∈ l ∧ (.registrationVarTx, 0) ∈ l := by
  let C : Matrix (Fin 6) (Fin 6) ℝ := fun i j => if (i, j) = (3, 3) then 1 else 0
  let m : PoseCovMsg := ⟨.empty, 1 :: List.replicate 35 0⟩
  have hC : RosCovariance m.covariance C := by
    refine ⟨by simp [m], fun i j => ?_⟩
    show (1 :: List.replicate 35 (0 : ℝ))[6 * (i : Nat) + j]? = some (if (rosOrder i, rosOrder j) = (3, 3) then 1 else 0)
    by_cases h : i = 0 ∧ j = 0
    · rw [h.1, h.2]; rfl
    · have : (rosOrder i, rosOrder j) ≠ (3, 3) := by revert h; revert i j; decide
      rw [if_neg this]
      obtain ⟨k, hk⟩ : ∃ k, 6 * (i : Nat) + j = k + 1 := by
        refine ⟨6 * (i : Nat) + j - 1, ?_⟩
        have : (i : Nat) ≠ 0 ∨ (j : Nat) ≠ 0 := by
          rcases not_and_or.1 h with h | h
          · exact .inl fun e => h (Fin.ext e)
          · exact .inr fun e => h (Fin.ext e)
        omega
      rw [hk, List.getElem?_cons_succ, List.getElem?_replicate, if_pos (by omega)]
  obtain ⟨v, e, -, hv, -⟩ := C111_metrics_partial [.registration m] (by simp [paths]) (by
    intro r hr
    have : r = m := by simpa [registrations] using hr.symm
    rw [this]; simp [m])
  obtain ⟨v1, -, -, v2, -⟩ := hv m _ rfl hC
  refine ⟨m, C, _, hC, e, rfl, fun i j h => if_neg h, ?_, ?_⟩
  · have : v .registrationVarRx = 1 := v1.trans rfl
    simp [this]
  · have : v .registrationVarTx = 0 := v2.trans (show (if ((rosOrder 3 : Fin 6), (rosOrder 3 : Fin 6)) = (3, 3) then (1 : ℝ) else 0) = 0 from if_neg (by decide))
    simp [this]

/-- C111, false for the angle: two poses of the same rotation, one with the quaternion `q` and one with `-q`, are reported as turned by
2π. -/
theorem C111_fails_angle : ∃ (a b : PoseCovMsg) (l : List (Name × ℝ)), rotation a.pose = rotation b.pose ∧
    Quat.Unit (fromQuaternion a.pose.orientation) ∧ Quat.Unit (fromQuaternion b.pose.orientation) ∧
    getMetrics (after [.pose a, .pose b]) = .ok l ∧ (.instantRelativePoseAngl, 2 * Real.pi) ∈ l := by
  refine ⟨poseAt 0 ⟨0, 0, 0, 1⟩, poseAt 0 ⟨0, 0, 0, -1⟩, _, ?_, ?_, ?_, rfl, ?_⟩
  · unfold rotation Quat.toMatrix
    simp [poseAt, fromQuaternion]
  · simp [poseAt, Quat.Unit, fromQuaternion]
  · simp [poseAt, Quat.Unit, fromQuaternion]
  · have : (instantPose (after [.pose (poseAt 0 ⟨0, 0, 0, 1⟩), .pose (poseAt 0 ⟨0, 0, 0, -1⟩)])).2 = 2 * Real.pi := by
      show 2 * Real.arccos (min 1 _) = _
      simp [poseAt]
    simp [this]

/-- C111, false while a pose is handled: poses at 0, 1 and 2 were received, any two in succession are one apart, and yet the motion is
reported as 0 when metrics are computed between the two assignments for the third. -/
theorem C111_fails_torn : ∃ (a b c : PoseCovMsg) (l : List (Name × ℝ)), motionNorm b.pose a.pose = 1 ∧ motionNorm c.pose b.pose = 1 ∧
    getMetrics (start.run [.poseBegin, .poseEnd a, .poseBegin, .poseEnd b, .poseBegin]) = .ok l ∧
    getMetrics (start.run [.poseBegin, .poseEnd a, .poseBegin, .poseEnd b, .poseBegin, .poseEnd c]) ≠ .ok l ∧
    (.instantRelativePoseNorm, 0) ∈ l := by
  have e : (instantPose (start.run [.poseBegin, .poseEnd (poseAt 0 ⟨0, 0, 0, 1⟩), .poseBegin, .poseEnd (poseAt 1 ⟨0, 0, 0, 1⟩),
      .poseBegin])).1 = 0 := by
    show Real.sqrt _ = 0
    simp [poseAt]
  have e' : (instantPose (start.run [.poseBegin, .poseEnd (poseAt 0 ⟨0, 0, 0, 1⟩), .poseBegin, .poseEnd (poseAt 1 ⟨0, 0, 0, 1⟩),
      .poseBegin, .poseEnd (poseAt 2 ⟨0, 0, 0, 1⟩)])).1 = 1 := by
    show Real.sqrt _ = 1
    simp [poseAt]
    norm_num
  refine ⟨poseAt 0 ⟨0, 0, 0, 1⟩, poseAt 1 ⟨0, 0, 0, 1⟩, poseAt 2 ⟨0, 0, 0, 1⟩, _, ?_, ?_, rfl, ?_, ?_⟩
  · simp [motionNorm, poseAt, fromPoint, Fin.sum_univ_three]
  · simp [motionNorm, poseAt, fromPoint, Fin.sum_univ_three]
    norm_num
  · intro h
    have h := Outcome.ok.inj h
    have h10 := congrArg (fun l => (l[10]?).map Prod.snd) h
    simp only [List.zip_cons_cons, List.zip_nil_right, List.cons_append, List.nil_append, List.getElem?_cons_succ,
      List.getElem?_cons_zero, Option.map_some] at h10
    rw [e, e'] at h10
    norm_num at h10
  · simp [e]

/-- A turn by 90 degrees and a move by one, from the identity at 0. -/
example : SameHalf (poseAt 1 ⟨0, 0, Real.sqrt 2 / 2, Real.sqrt 2 / 2⟩).pose (poseAt 0 ⟨0, 0, 0, 1⟩).pose ∧
    motionNorm (poseAt 1 ⟨0, 0, 0, 1⟩).pose (poseAt 0 ⟨0, 0, 0, 1⟩).pose = 1 ∧
    secondLast [(1 : ℕ), 2, 3] = some 2 := by
  have h2 := Real.sq_sqrt (show (0 : ℝ) ≤ 2 by norm_num)
  refine ⟨⟨?_, ?_, ?_⟩, ?_, rfl⟩
  · simp only [poseAt, Quat.Unit, fromQuaternion]; nlinarith
  · simp [poseAt, Quat.Unit, fromQuaternion]
  · simp only [poseAt]
    have := Real.sqrt_nonneg 2
    linarith
  · simp [motionNorm, poseAt, fromPoint, Fin.sum_univ_three]

end Metrics

end Serpent
