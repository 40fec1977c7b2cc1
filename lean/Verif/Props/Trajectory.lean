import Verif.Lemmas.TrajectoryLib

/-!
# C119, C120, C121: moving, interpolating and comparing trajectories

`lib` are the functions of Matlab's toolboxes; they keep their contract (`Lib.Lawful`).
-/

namespace Serpent

namespace Trajectory

open EigenExt Matrix

variable {lib : Lib}

/-! ## C119: moving a trajectory and its length -/

theorem movedBy_cons {G : Iso ℝ} {x y : ℝ × Pose} {a b : Traj} (h : MovedBy G (x :: a) (y :: b)) :
    (y.1 = x.1 ∧ poseToMatrix y.2 = G * poseToMatrix x.2) ∧ MovedBy G a b := by
  cases h with
  | cons h1 h2 => exact ⟨h1, h2⟩

/-- The trajectory that starts at another pose is the old one moved as a rigid body: the motion takes the old first pose to the new one. -/
theorem C119_recompute_is_a_rigid_motion (hl : lib.Lawful) {l : Traj} {s : ℝ} {p first : Pose} (hv : Valid l) (hf : first.Valid)
    (hh : l.head? = some (s, p)) :
    ∃ l' G, recompute lib l first = .ok l' ∧ Rigid G ∧ G * poseToMatrix p = poseToMatrix first ∧ MovedBy G l l' ∧ Valid l' ∧
      l'.head? = some (s, first) := by
  match l, hh with
  | (s', p') :: ps, hh =>
    obtain ⟨rfl, rfl⟩ := Prod.mk.inj (Option.some.inj hh)
    have hp : Rigid (poseToMatrix p') := (hv _ List.mem_cons_self).rigid
    obtain ⟨l', h1, h2, h3, h4⟩ := recompute_moved hl hv hf
    refine ⟨l', _, h1, hf.rigid.mul hp.inv, ?_, h2, h3, h4⟩
    rw [Iso.mul_assoc, hp.inv_mul, Iso.mul_one]

/-- There is nothing to move without a pose. -/
theorem C119_recompute_empty (first : Pose) : recompute lib [] first = .throws := rfl

/-- Given its own first pose, a trajectory stays where it is. -/
theorem C119_recompute_own_first (hl : lib.Lawful) {l : Traj} {s : ℝ} {p : Pose} (hv : Valid l) (hh : l.head? = some (s, p)) :
    ∃ l', recompute lib l p = .ok l' ∧ List.Forall₂ (fun x y => y.1 = x.1 ∧ poseToMatrix y.2 = poseToMatrix x.2) l l' := by
  have hp : p.Valid := hv _ (List.mem_of_mem_head? hh)
  obtain ⟨l', G, h1, h2, h3, h4, -, -⟩ := C119_recompute_is_a_rigid_motion hl hv hp hh
  refine ⟨l', h1, ?_⟩
  have e : G = 1 := by
    have := congrArg (· * (poseToMatrix p)⁻¹) h3
    simpa only [Iso.mul_assoc, hp.rigid.mul_inv, Iso.mul_one] using this
  rw [e] at h4
  simpa only [MovedBy, Iso.one_mul] using h4

theorem recomputeLoop_congr {G : Iso ℝ} (hG : Rigid G) : ∀ (l l' : Traj) (P A : Iso ℝ), Rigid P → Valid l → MovedBy G l l' →
    recomputeLoop lib (G * P) A l' = recomputeLoop lib P A l
  | [], l', P, A, hP, hv, h => by
    cases h
    rfl
  | (s, p) :: l, y :: l', P, A, hP, hv, h => by
    obtain ⟨⟨h1, h2⟩, h3⟩ := movedBy_cons h
    obtain ⟨t, q⟩ := y
    change t = s at h1
    change poseToMatrix q = G * poseToMatrix p at h2
    have hp : Rigid (poseToMatrix p) := (hv _ List.mem_cons_self).rigid
    simp only [recomputeLoop, h1, h2, ldiv_mul hG hP]
    rw [recomputeLoop_congr hG l l' _ _ hp (fun x hx => hv x (List.mem_cons_of_mem _ hx)) h3]

/-- Where the trajectory was before does not matter: moving it twice is moving it once. -/
theorem C119_recompute_twice (hl : lib.Lawful) {l l' : Traj} {f g : Pose} (hv : Valid l) (hf : f.Valid)
    (h : recompute lib l f = .ok l') : recompute lib l' g = recompute lib l g := by
  match l, h with
  | (s, p) :: ps, h =>
    obtain ⟨l'', G, h1, h2, h3, h4, h5, h6⟩ := C119_recompute_is_a_rigid_motion hl (l := (s, p) :: ps) hv hf rfl
    obtain rfl : l' = l'' := by
      rw [h] at h1
      exact Outcome.ok.inj h1
    match l', h6, h4 with
    | y :: l', h6, h4 =>
      obtain rfl := Option.some.inj h6
      have hp : Rigid (poseToMatrix p) := (hv _ List.mem_cons_self).rigid
      show Outcome.ok ((s, g) :: recomputeLoop lib (poseToMatrix f) (poseToMatrix g) l') =
        Outcome.ok ((s, g) :: recomputeLoop lib (poseToMatrix p) (poseToMatrix g) ps)
      rw [← h3, recomputeLoop_congr h2 ps l' _ _ hp (fun x hx => hv x (List.mem_cons_of_mem _ hx)) (movedBy_cons h4).2]

/-- The successive motions of a trajectory. -/
def Motions : List Pose → List Pose → Prop
  | p :: q :: ps, m :: ms => poseToMatrix p * poseToMatrix m = poseToMatrix q ∧ Motions (q :: ps) ms
  | [_], [] => True
  | _, _ => False

theorem relativeLoop_motions (hl : lib.Lawful) : ∀ (ps : List Pose) (p : Pose), (∀ q ∈ p :: ps, q.Valid) →
    Motions (p :: ps) (relativeLoop lib (poseToMatrix p) ps)
  | [], p, _ => trivial
  | q :: ps, p, h => by
    have hp : Rigid (poseToMatrix p) := (h p List.mem_cons_self).rigid
    have hq : Rigid (poseToMatrix q) := (h q (List.mem_cons_of_mem _ List.mem_cons_self)).rigid
    refine ⟨?_, relativeLoop_motions hl ps q fun x hx => h x (List.mem_cons_of_mem _ hx)⟩
    rw [poseToMatrix_matrixToPose hl (ldiv_rigid hp hq), ldiv_eq hp, mul_inv_cancel_left hp]

/-- The relative poses are the motions from each pose to the next; they need two poses. -/
theorem C119_relative_poses (hl : lib.Lawful) {l : List Pose} (hv : ∀ p ∈ l, p.Valid) :
    (2 ≤ l.length → ∃ ms, relativePoses lib l = .ok ms ∧ Motions l ms) ∧ (l.length < 2 → relativePoses lib l = .throws) := by
  constructor
  · intro h
    match l, h with
    | p :: q :: ps, _ => exact ⟨_, rfl, relativeLoop_motions hl (q :: ps) p hv⟩
  · intro h
    match l, h with
    | [], _ => rfl
    | [_], _ => rfl

theorem relativeLoop_moved {G : Iso ℝ} (hG : Rigid G) : ∀ (l l' : Traj) (P : Iso ℝ), Rigid P → Valid l → MovedBy G l l' →
    relativeLoop lib (G * P) (l'.map Prod.snd) = relativeLoop lib P (l.map Prod.snd)
  | [], l', P, hP, hv, h => by
    cases h
    rfl
  | (s, p) :: l, y :: l', P, hP, hv, h => by
    obtain ⟨⟨h1, h2⟩, h3⟩ := movedBy_cons h
    change poseToMatrix y.2 = G * poseToMatrix p at h2
    have hp : Rigid (poseToMatrix p) := (hv _ List.mem_cons_self).rigid
    simp only [List.map_cons, relativeLoop, h2, ldiv_mul hG hP]
    rw [relativeLoop_moved hG l l' _ hp (fun x hx => hv x (List.mem_cons_of_mem _ hx)) h3]

/-- A rigid motion of the trajectory leaves the relative poses as they are. -/
theorem C119_relative_poses_unchanged {G : Iso ℝ} (hG : Rigid G) {l l' : Traj} (hv : Valid l) (h : MovedBy G l l') :
    relativePoses lib (l'.map Prod.snd) = relativePoses lib (l.map Prod.snd) := by
  match l, l', h with
  | [], [], _ => rfl
  | [_], [_], _ => rfl
  | (s, p) :: a :: l, (s', p') :: a' :: l', h =>
    obtain ⟨⟨h1, h2⟩, h3⟩ := movedBy_cons h
    change poseToMatrix p' = G * poseToMatrix p at h2
    have hp : Rigid (poseToMatrix p) := (hv _ List.mem_cons_self).rigid
    have := relativeLoop_moved (lib := lib) hG (a :: l) (a' :: l') _ hp (fun x hx => hv x (List.mem_cons_of_mem _ hx)) h3
    simp only [List.map_cons] at this
    simp only [List.map_cons, relativePoses, h2, this]

/-- The length is the sum of the distances between successive positions. -/
theorem C119_length {l : List Pose} (hv : ∀ p ∈ l, p.Valid) (hn : l ≠ []) :
    trajectoryLength l = .ok (pathLength (l.map Pose.position)) := by
  match l, hn with
  | p :: ps, _ =>
    have := lengthLoop_eq ps 0 p (hv _ List.mem_cons_self) fun q hq => hv q (List.mem_cons_of_mem _ hq)
    rw [zero_add] at this
    show Outcome.ok _ = _
    rw [this]
    rfl

/-- It is at least the distance between the ends. -/
theorem C119_length_ends {l : List Pose} {p q : Pose} {len : ℝ} (hv : ∀ p ∈ l, p.Valid) (hp : l.head? = some p)
    (hq : l.getLast? = some q) (h : trajectoryLength l = .ok len) : distance p.position q.position ≤ len := by
  match l, hp with
  | r :: ps, hp =>
    obtain rfl := Option.some.inj hp
    rw [C119_length hv (by simp)] at h
    obtain rfl := Outcome.ok.inj h
    refine le_pathLength _ _ _ ?_
    have := congrArg (Option.map Pose.position) hq
    rw [← List.getLast?_map] at this
    exact this

theorem pathLength_moved {G : Iso ℝ} (hG : Rigid G) : ∀ (l l' : Traj), MovedBy G l l' →
    pathLength (positions l') = pathLength (positions l)
  | [], [], _ => rfl
  | [_], [_], _ => rfl
  | x :: a :: l, y :: b :: l', h => by
    obtain ⟨h1, h2⟩ := movedBy_cons h
    obtain ⟨h3, h4⟩ := movedBy_cons h2
    have e1 : y.2.position = G.R *ᵥ x.2.position + G.t := congrArg Iso.t h1.2
    have e2 : b.2.position = G.R *ᵥ a.2.position + G.t := congrArg Iso.t h3.2
    have := pathLength_moved hG (a :: l) (b :: l') h2
    simp only [positions, List.map_cons, pathLength] at this ⊢
    rw [this, e1, e2, distance_eq, distance_eq, add_sub_add_right_eq_sub, ← mulVec_sub, norm3_rotate (rotation_of hG)]

/-- A rigid motion does not change it. -/
theorem C119_length_unchanged {G : Iso ℝ} (hG : Rigid G) {l l' : Traj} (hv : Valid l) (hv' : Valid l') (h : MovedBy G l l') :
    trajectoryLength (l'.map Prod.snd) = trajectoryLength (l.map Prod.snd) := by
  match l, l', h with
  | [], [], _ => rfl
  | x :: l, y :: l', h =>
    have hs : ∀ {l : Traj}, Valid l → ∀ p ∈ l.map Prod.snd, p.Valid := fun hv p hp => by
      obtain ⟨e, he, rfl⟩ := List.mem_map.1 hp
      exact hv e he
    rw [C119_length (hs hv') (by simp), C119_length (hs hv) (by simp)]
    have := pathLength_moved hG _ _ h
    simp only [positions] at this
    rw [List.map_map, List.map_map]
    exact congrArg Outcome.ok this

/-! ### Examples -/

/-- The pose at a position without a rotation. -/
def still (x y z : ℝ) : Pose := ⟨![x, y, z], ⟨1, 0, 0, 0⟩⟩

/-- The pose at a position after a quarter turn about the third axis (the quaternion is not normalised). -/
def turned (x y z : ℝ) : Pose := ⟨![x, y, z], ⟨1, 0, 0, 1⟩⟩

theorem still_valid (x y z : ℝ) : (still x y z).Valid := by simp [Pose.Valid, still]

theorem turned_valid (x y z : ℝ) : (turned x y z).Valid := by simp [Pose.Valid, turned]

/-- Three poses along the first axis. -/
def walk : Traj := [(0, still 0 0 0), (1, still 1 0 0), (2, turned 3 0 0)]

theorem walk_valid : Valid walk := by
  intro e he
  simp only [walk, List.mem_cons, List.not_mem_nil, or_false] at he
  rcases he with rfl | rfl | rfl
  · exact still_valid _ _ _
  · exact still_valid _ _ _
  · exact turned_valid _ _ _

theorem walk_increasing : Increasing walk := by
  simp [Increasing, walk]

/-- C119 applies: the walk, moved to start at another place with a quarter turn. -/
example : ∃ l' G, recompute exampleLib walk (turned 5 5 0) = .ok l' ∧ Rigid G ∧
    G * poseToMatrix (still 0 0 0) = poseToMatrix (turned 5 5 0) ∧ MovedBy G walk l' ∧ Valid l' ∧
    l'.head? = some (0, turned 5 5 0) :=
  C119_recompute_is_a_rigid_motion exampleLib_lawful walk_valid (turned_valid _ _ _) rfl

/-- The walk is three long. -/
example : trajectoryLength (walk.map Prod.snd) = .ok 3 := by
  rw [C119_length (fun p hp => by
    obtain ⟨e, he, rfl⟩ := List.mem_map.1 hp
    exact walk_valid e he) (by simp [walk])]
  have e2 : (3 - 1 : ℝ) = 2 := by norm_num
  simp [walk, pathLength, distance, still, turned, Fin.sum_univ_three]
  rw [show ((1 : ℝ) - 3) = -2 by norm_num]
  rw [show ((-2 : ℝ)) ^ 2 = 2 ^ 2 by norm_num, Real.sqrt_sq (by norm_num)]
  norm_num

/-! ## C120: the reference at a time -/

/-- There is one reference at a time. -/
theorem C120_reference_unique {gt : Traj} (hg : Increasing gt) {t : ℝ} {G G' : Iso ℝ} (h : IsReference lib gt t G)
    (h' : IsReference lib gt t G') : G = G' := by
  rcases h with ⟨p, hp, rfl⟩ | ⟨a, b, hn, h1, h2, h3, h4⟩
  · rcases h' with ⟨p', hp', rfl⟩ | ⟨a', b', hn', h1', h2', h3', h4'⟩
    · rw [hg.eq hp hp']
    · exact (hg.no_between hp hn' h1' h2').elim
  · rcases h' with ⟨p', hp', rfl⟩ | ⟨a', b', hn', h1', h2', h3', h4'⟩
    · exact (hg.no_between hp' hn h1 h2).elim
    · obtain ⟨rfl, rfl⟩ := hg.neighbours_eq hn h1 h2 hn' h1' h2'
      exact Iso.ext (h4.trans h4'.symm) (h3.trans h3'.symm)

/-- Whatever times are asked for, in whatever order: if the interpolation returns, every pose of the result is the reference at its
time. -/
theorem C120_interpolation_is_the_reference (hl : lib.Lawful) {gt : Traj} (hv : Valid gt) (hg : Increasing gt) {ts : List ℝ} {r : Traj}
    (h : interpolate lib ts gt = .ok r) :
    List.Forall₂ (fun t x => x.1 = t ∧ IsReference lib gt t (poseToMatrix x.2)) ts r ∧ Valid r := by
  unfold interpolate at h
  split at h
  · split at h
    · exact absurd h (by simp)
    · exact interpLoop_ok hl hv hg ts 0 r h
  · exact absurd h (by simp)

/-- It returns for times in order that lie within those of the trajectory, if this has two poses. -/
theorem C120_interpolation_succeeds {gt : Traj} (hg : Increasing gt) (h2 : 2 ≤ gt.length) {a b : ℝ × Pose} (ha : gt.head? = some a)
    (hb : gt.getLast? = some b) {ts : List ℝ} (hn : ts ≠ []) (hs : ts.Pairwise (· ≤ ·)) (hin : ∀ t ∈ ts, a.1 ≤ t ∧ t ≤ b.1) :
    ∃ r, interpolate lib ts gt = .ok r := by
  unfold interpolate
  obtain ⟨r, hr⟩ : ∃ r, ts.head? = some r := by
    cases ts with
    | nil => exact absurd rfl hn
    | cons x _ => exact ⟨x, rfl⟩
  obtain ⟨q, hq⟩ : ∃ q, ts.getLast? = some q := ⟨ts.getLast hn, List.getLast?_eq_some_getLast hn⟩
  rw [ha, hb, hr, hq]
  show ∃ r', (if a.1 > r ∨ b.1 < q then _ else _) = _
  rw [if_neg]
  · exact interpLoop_succeeds hg ha hb h2 ts 0 (by omega) hin hs fun _ _ k _ hk => absurd hk (Nat.not_lt_zero k)
  · have h3 := hin r (List.mem_of_mem_head? hr)
    have h4 := hin q (List.mem_of_getLast? hq)
    rintro (h | h)
    · linarith [h3.1]
    · linarith [h4.2]

/-- A trajectory of one pose cannot be interpolated, not even at its own time. -/
theorem C120_single_pose_fails (x : ℝ × Pose) (ts : List ℝ) : interpolate lib ts [x] = .throws := by
  unfold interpolate
  cases ts with
  | nil => rfl
  | cons t ts =>
    simp only [List.head?_cons, List.getLast?_singleton]
    split
    · split
      · rfl
      · show (interpOne lib [x] (interpAdvance [x] t 0) t >>= _) = _
        have : interpAdvance [x] t 0 = 0 := by
          rw [interpAdvance, dif_neg (by simp)]
        rw [this]
        rfl
    · rfl

open Classical in
/-- The poses within the time of the reference. -/
noncomputable def inside {α β : Type} (a b : ℝ × α) (l : List (ℝ × β)) : List (ℝ × β) :=
  l.filter fun x => decide (a.1 ≤ x.1 ∧ x.1 ≤ b.1)

theorem withinBounds_inside {α β : Type} {gt : List (ℝ × α)} {l : List (ℝ × β)} {a b : ℝ × α} (ha : gt.head? = some a)
    (hb : gt.getLast? = some b) : withinBounds gt l = .ok (inside a b l) := by
  unfold withinBounds inside
  rw [ha, hb]
  show Outcome.ok _ = _
  congr 1
  refine List.filter_congr fun x _ => ?_
  exact decide_eq_decide.2 ⟨fun h => ⟨h.2, h.1⟩, fun h => ⟨h.2, h.1⟩⟩

/-- The same for the comparison of poses: whatever their order, if it returns, then the errors are those with respect to the reference at
the times of the poses; poses outside of the reference's time are left out, and no others. -/
theorem C120_pose_errors_use_the_reference (hl : lib.Lawful) {gt l : Traj} (hv : Valid gt) (hg : Increasing gt) (hvl : Valid l)
    {a b : ℝ × Pose} (ha : gt.head? = some a) (hb : gt.getLast? = some b) {r : Errors (Iso ℝ)} (h : poseErrors lib gt l = .ok r) :
    ∃ Gs, List.Forall₂ (fun G x => IsReference lib gt x.1 G ∧ Rigid G) Gs (inside a b l) ∧
      r.absolute = apesOf Gs (inside a b l) ∧ r.relative = rpesOf Gs (inside a b l) := by
  unfold poseErrors at h
  rw [withinBounds_inside ha hb, Outcome.bind_ok] at h
  exact poseErrorsLoop_spec hl hv hg (inside a b l) 0 none r (fun x hx => hvl x (List.mem_filter.1 hx).1)
    (fun x hx => absurd hx (by simp)) h

/-- It returns if the poses are in the order of their times. -/
theorem C120_pose_errors_succeed {gt l : Traj} {a b : ℝ × Pose} (ha : gt.head? = some a) (hb : gt.getLast? = some b)
    (hs : l.Pairwise fun x y => x.1 ≤ y.1) : ∃ r, poseErrors lib gt l = .ok r := by
  unfold poseErrors
  rw [withinBounds_inside ha hb, Outcome.bind_ok]
  refine poseErrorsLoop_succeeds ha hb (inside a b l) 0 none (fun x hx => ?_) (hs.filter _) fun _ _ k _ hk =>
    absurd hk (Nat.not_lt_zero k)
  exact of_decide_eq_true (List.mem_filter.1 hx).2

/-- For vectors: each error is the vector less the reference at its time. -/
theorem C120_vector_errors_use_the_reference {n : Nat} {gt l : List (ℝ × (Fin n → ℝ))} (hg : Increasing gt)
    {a b : ℝ × (Fin n → ℝ)} (ha : gt.head? = some a) (hb : gt.getLast? = some b) {r : Errors (Fin n → ℝ)}
    (h : vectorErrors gt l = .ok r) :
    List.Forall₂ (fun e x => e.1 = x.1 ∧ ∃ g, IsVectorReference gt x.1 g ∧ e.2 = x.2 - g) r.absolute (inside a b l) := by
  unfold vectorErrors at h
  rw [withinBounds_inside ha hb, Outcome.bind_ok] at h
  refine (vectorErrorsLoop_spec hg (inside a b l) 0 none r h).1.imp fun e x hx => ⟨hx.1, _, hx.2, ?_⟩
  rw [sub_sub_cancel]

/-- For vectors: the errors are computed whenever the reference is not empty and the vectors are in the order of time. -/
theorem C120_vector_errors_succeed {n : Nat} {gt l : List (ℝ × (Fin n → ℝ))} {a b : ℝ × (Fin n → ℝ)} (ha : gt.head? = some a)
    (hb : gt.getLast? = some b) (hs : l.Pairwise fun x y => x.1 ≤ y.1) : ∃ r, vectorErrors gt l = .ok r := by
  unfold vectorErrors
  rw [withinBounds_inside ha hb, Outcome.bind_ok]
  refine vectorErrorsLoop_succeeds ha hb (inside a b l) 0 none (fun x hx => ?_) (hs.filter _) fun _ _ k _ hk =>
    absurd hk (Nat.not_lt_zero k)
  exact of_decide_eq_true (List.mem_filter.1 hx).2

/-- Poses out of order make it stop, although all of them lie within the time of the reference. -/
theorem C120_fails_out_of_order (p q : Pose) : poseErrors lib walk [(3 / 2, p), (1 / 2, q)] = .throws := by
  have hw : withinBounds walk [((3 / 2 : ℝ), p), (1 / 2, q)] = .ok [(3 / 2, p), (1 / 2, q)] := by
    refine withinBounds_id (a := (0, still 0 0 0)) (b := (2, turned 3 0 0)) rfl rfl fun x hx => ?_
    simp only [List.mem_cons, List.not_mem_nil, or_false] at hx
    rcases hx with rfl | rfl <;> norm_num
  have h1 : advance walk (3 / 2) 0 = .ok 2 := by
    rw [advance, dif_pos (by simp [walk]), if_pos (by norm_num [walk]), advance, dif_pos (by simp [walk]), if_pos (by norm_num [walk]),
      advance, dif_pos (by simp [walk]), if_neg (by norm_num [walk])]
  have h2 : advance walk (1 / 2) 2 = .ok 2 := by
    rw [advance, dif_pos (by simp [walk]), if_neg (by norm_num [walk])]
  obtain ⟨G, hG⟩ : ∃ G, poseReference lib walk 2 (3 / 2) = .ok G := by
    obtain ⟨T, hT⟩ := interpTransform_between (lib := lib) (t1 := 1) (t2 := 2) (t := 3 / 2) (still 1 0 0) (turned 3 0 0) (by norm_num)
      (by norm_num) (by norm_num)
    refine ⟨T, ?_⟩
    show (if ((2 : ℝ) = 3 / 2) then _ else interpTransform lib 1 2 (still 1 0 0) (turned 3 0 0) (3 / 2)) = _
    rw [if_neg (by norm_num), hT]
  have h4 : poseReference lib walk 2 (1 / 2) = .throws := by
    show (if ((2 : ℝ) = 1 / 2) then _ else interpTransform lib 1 2 (still 1 0 0) (turned 3 0 0) (1 / 2)) = _
    rw [if_neg (by norm_num)]
    unfold interpTransform coefficient
    rw [if_neg (by norm_num), if_pos (by norm_num)]
    rfl
  unfold poseErrors
  rw [hw, Outcome.bind_ok]
  show (advance walk (3 / 2) 0 >>= _) = _
  rw [h1, Outcome.bind_ok, hG, Outcome.bind_ok]
  have h5 : poseErrorsLoop lib walk 2 (some (G, poseToMatrix p)) [((1 / 2 : ℝ), q)] = .throws := by
    show (advance walk (1 / 2) 2 >>= _) = _
    rw [h2, Outcome.bind_ok, h4]
    rfl
  rw [h5]
  rfl

/-- C120 applies to the walk, asked for in between and at its own times. -/
example : ∃ r, interpolate lib [0, 1 / 2, 1, 3 / 2, 2] walk = .ok r :=
  C120_interpolation_succeeds walk_increasing (by simp [walk]) (a := (0, still 0 0 0)) (b := (2, turned 3 0 0)) rfl rfl (by simp)
    (by simp; norm_num) (by simp; norm_num)

example : ∃ r, poseErrors lib walk [(-1, still 0 0 0), (1 / 2, still 1 1 1), (1 / 2, still 1 1 1), (2, turned 3 0 0), (7, still 0 0 0)] = .ok r :=
  C120_pose_errors_succeed (a := (0, still 0 0 0)) (b := (2, turned 3 0 0)) rfl rfl (by simp; norm_num)

/-- The reference halfway between the first two poses. -/
example : ∃ G, IsReference exampleLib walk (1 / 2) G ∧ G.t = ![1 / 2, 0, 0] := by
  refine ⟨⟨_, _⟩, Or.inr ⟨(0, still 0 0 0), (1, still 1 0 0), ⟨[], [(2, turned 3 0 0)], rfl⟩, by norm_num, by norm_num, rfl, rfl⟩, ?_⟩
  ext i
  fin_cases i <;> norm_num [still]

/-! ## C121: errors -/

/-- The absolute errors vanish exactly for the poses that are the reference. -/
theorem C121_absolute_errors_zero {Gs : List (Iso ℝ)} {l : Traj} (h : List.Forall₂ (fun G _ => Rigid G) Gs l) :
    (∀ e ∈ apesOf Gs l, e.2 = 1) ↔ List.Forall₂ (fun G x => poseToMatrix x.2 = G) Gs l := by
  induction h with
  | nil => simp [apesOf]
  | @cons G x Gs l hG h ih =>
    obtain ⟨t, p⟩ := x
    simp only [apesOf, List.forall_mem_cons, List.forall₂_cons, ih, eq_of_inv_mul hG]

theorem rpes_cons {G : Iso ℝ} {Gs : List (Iso ℝ)} {x : ℝ × Pose} {l : Traj} (hG : Rigid G) (hx : x.2.Valid) (hv : Valid l)
    (h : List.Forall₂ (fun G _ => Rigid G) Gs l) :
    (∀ e ∈ rpesOf (G :: Gs) (x :: l), e.2 = 1) ↔
      List.Forall₂ (fun G' y => poseToMatrix y.2 = poseToMatrix x.2 * G⁻¹ * G') (G :: Gs) (x :: l) := by
  have key : ∀ {G x}, Rigid G → x.Valid → poseToMatrix x = poseToMatrix x * G⁻¹ * G := fun {G x} hG hx => by
    rw [Iso.mul_assoc, hG.inv_mul, Iso.mul_one]
  induction h generalizing G x with
  | nil =>
    obtain ⟨t, p⟩ := x
    simp [rpesOf, ← key hG hx]
  | @cons G2 y Gs l hG2 h ih =>
    obtain ⟨t, p⟩ := x
    obtain ⟨t2, p2⟩ := y
    have hp2 := hv _ List.mem_cons_self
    have ih := ih hG2 hp2 (fun z hz => hv z (List.mem_cons_of_mem _ hz))
    simp only [rpesOf, List.forall_mem_cons, eq_of_inv_mul (hG.inv.mul hG2)]
    refine (and_congr Iff.rfl ih).trans ?_
    rw [List.forall₂_cons, List.forall₂_cons, List.forall₂_cons]
    have e : (poseToMatrix p)⁻¹ * poseToMatrix p2 = G⁻¹ * G2 ↔ poseToMatrix p2 = poseToMatrix p * G⁻¹ * G2 := by
      constructor
      · intro e
        rw [Iso.mul_assoc, ← e, mul_inv_cancel_left hx.rigid]
      · intro e
        rw [e, Iso.mul_assoc, inv_mul_cancel_left hx.rigid]
    rw [e]
    constructor
    · rintro ⟨h1, h2, h3⟩
      refine ⟨key hG hx, h1, ?_⟩
      have : poseToMatrix p2 * G2⁻¹ = poseToMatrix p * G⁻¹ := by
        rw [h1, Iso.mul_assoc, hG2.mul_inv, Iso.mul_one]
      simpa only [this] using h3
    · rintro ⟨h1, h2, h3⟩
      have : poseToMatrix p2 * G2⁻¹ = poseToMatrix p * G⁻¹ := by
        change poseToMatrix p2 = _ at h2
        rw [h2, Iso.mul_assoc, hG2.mul_inv, Iso.mul_one]
      exact ⟨h2, key hG2 hp2, by simpa only [this] using h3⟩

/-- The relative errors vanish exactly for the trajectories that are the reference moved as a rigid body. -/
theorem C121_relative_errors_zero {Gs : List (Iso ℝ)} {l : Traj} (hv : Valid l) (h : List.Forall₂ (fun G _ => Rigid G) Gs l) :
    (∀ e ∈ rpesOf Gs l, e.2 = 1) ↔ ∃ M, Rigid M ∧ List.Forall₂ (fun G x => poseToMatrix x.2 = M * G) Gs l := by
  cases h with
  | nil => simp only [rpesOf]; exact ⟨fun _ => ⟨1, Rigid.one, List.Forall₂.nil⟩, fun _ e he => absurd he List.not_mem_nil⟩
  | @cons G x Gs l hG h =>
    have hx := hv _ List.mem_cons_self
    rw [rpes_cons hG hx (fun z hz => hv z (List.mem_cons_of_mem _ hz)) h]
    constructor
    · exact fun h => ⟨_, hx.rigid.mul hG.inv, h⟩
    · rintro ⟨M, hM, h⟩
      have e : M = poseToMatrix x.2 * G⁻¹ := by
        have h1 := (List.forall₂_cons.1 h).1
        rw [h1, Iso.mul_assoc, hG.mul_inv, Iso.mul_one]
      rw [e] at h
      exact h

theorem inside_moved {a b : ℝ × Pose} {M : Iso ℝ} {l l' : Traj} (hm : MovedBy M l l') : MovedBy M (inside a b l) (inside a b l') := by
  unfold inside
  induction hm with
  | nil => exact List.Forall₂.nil
  | @cons x y l l' hx hm ih =>
    by_cases hc : a.1 ≤ x.1 ∧ x.1 ≤ b.1
    · rw [List.filter_cons_of_pos (by simpa using hc), List.filter_cons_of_pos (by rw [hx.1]; simpa using hc)]
      exact List.Forall₂.cons hx ih
    · rw [List.filter_cons_of_neg (by simpa using hc), List.filter_cons_of_neg (by rw [hx.1]; simpa using hc)]
      exact ih

/-- Where the trajectory was put does not change the relative errors: a rigid motion of it leaves them as they are. -/
theorem C121_relative_errors_unchanged {gt l l' : Traj} {M : Iso ℝ} (hM : Rigid M) (hv : Valid l) (hm : MovedBy M l l')
    {r : Errors (Iso ℝ)} (h : poseErrors lib gt l = .ok r) :
    ∃ r', poseErrors lib gt l' = .ok r' ∧ r'.relative = r.relative := by
  unfold poseErrors at h
  obtain ⟨k, hk, h⟩ := bind_eq_ok h
  obtain ⟨a, b, ha, hb, -⟩ := withinBounds_ok hk
  rw [withinBounds_inside ha hb] at hk
  obtain rfl := Outcome.ok.inj hk
  have hm' := inside_moved (a := a) (b := b) hm
  obtain ⟨r', h1, h2, -⟩ := poseErrorsLoop_moved hM (inside a b l) (inside a b l') 0 none r
    (fun x hx => hv x (List.mem_filter.1 hx).1) hm' (fun x hx => absurd hx (by simp)) h
  refine ⟨r', ?_, h2⟩
  unfold poseErrors
  rw [withinBounds_inside ha hb, Outcome.bind_ok]
  exact h1

theorem apes_norms (hl : lib.Lawful) {Gs : List (Iso ℝ)} {l : Traj} (hv : Valid l) (h : List.Forall₂ (fun G _ => Rigid G) Gs l) :
    (normsOf lib (apesOf Gs l)).position = List.zipWith (fun G x => (x.1, distance G.t x.2.position)) Gs l ∧
    (normsOf lib (apesOf Gs l)).rotation = List.zipWith (fun G x => (x.1, rotationAngle (G.Rᵀ * (poseToMatrix x.2).R))) Gs l := by
  induction h with
  | nil => exact ⟨rfl, rfl⟩
  | @cons G x Gs l hG h ih =>
    obtain ⟨t, p⟩ := x
    obtain ⟨h1, h2⟩ := ih fun z hz => hv z (List.mem_cons_of_mem _ hz)
    have hp := (hv _ List.mem_cons_self).rigid
    simp only [normsOf] at h1 h2 ⊢
    simp only [apesOf, List.map_cons, List.zipWith_cons_cons, h1, h2]
    refine ⟨?_, ?_⟩
    · rw [show (splitPose lib (G⁻¹ * poseToMatrix p)).1 = (G⁻¹ * poseToMatrix p).t from rfl, norm3_inv_mul hG]
      rfl
    · rw [splitPose_rotation hl (hG.inv.mul hp)]
      rfl

/-- The norms reported for the absolute errors: the distance between the position and the reference position, and the angle of the
rotation between the orientation and the reference orientation. -/
theorem C121_absolute_norms (hl : lib.Lawful) {Gs : List (Iso ℝ)} {l : Traj} (hv : Valid l)
    (h : List.Forall₂ (fun G _ => Rigid G) Gs l) :
    (normsOf lib (apesOf Gs l)).position = List.zipWith (fun G x => (x.1, distance G.t x.2.position)) Gs l ∧
    (normsOf lib (apesOf Gs l)).rotation = List.zipWith (fun G x => (x.1, rotationAngle (G.Rᵀ * (poseToMatrix x.2).R))) Gs l :=
  apes_norms hl hv h

/-- The norms of any errors, in particular of the relative ones: the length of the translation and the angle of the rotation. -/
theorem C121_norms (hl : lib.Lawful) {l : List (ℝ × Iso ℝ)} (h : ∀ e ∈ l, Rigid e.2) :
    (normsOf lib l).position = l.map (fun e => (e.1, distance 0 e.2.t)) ∧
    (normsOf lib l).rotation = l.map (fun e => (e.1, rotationAngle e.2.R)) := by
  constructor
  · refine List.map_congr_left fun e _ => ?_
    rw [distance_eq, sub_zero]
    rfl
  · refine List.map_congr_left fun e he => ?_
    rw [splitPose_rotation hl (h e he)]

/-- The number reported for all of them: the number of errors times its square is the sum of the squares. -/
theorem C121_root_mean_square {l : List ℝ} (h : l ≠ []) : 0 ≤ rms l ∧ l.length * rms l ^ 2 = (l.map fun x => x ^ 2).sum := by
  have hn : (0 : ℝ) < l.length := by
    have := List.length_pos_of_ne_nil h
    exact_mod_cast this
  have hs : 0 ≤ (l.map fun x => x ^ 2).sum := by
    apply List.sum_nonneg
    intro x hx
    obtain ⟨y, -, rfl⟩ := List.mem_map.1 hx
    exact sq_nonneg y
  refine ⟨Real.sqrt_nonneg _, ?_⟩
  unfold rms
  rw [Real.sq_sqrt (div_nonneg hs hn.le)]
  field_simp

/-- It is what is reported. -/
theorem C121_reported_root_mean_square (l : List (ℝ × Iso ℝ)) :
    (normsOf lib l).positionRmse = rms ((normsOf lib l).position.map Prod.snd) ∧
    (normsOf lib l).rotationRmse = rms ((normsOf lib l).rotation.map Prod.snd) := ⟨rfl, rfl⟩

/-- The relative error of vectors is the change of the absolute error since the vector before, with the opposite sign. -/
theorem C121_vector_relative_errors {n : Nat} {gt l : List (ℝ × (Fin n → ℝ))} (hg : Increasing gt) {r : Errors (Fin n → ℝ)}
    (h : vectorErrors gt l = .ok r) :
    r.relative = r.absolute.zipWith (fun e e' => (e'.1, -(e'.2 - e.2))) r.absolute.tail := by
  unfold vectorErrors at h
  obtain ⟨k, hk, h⟩ := bind_eq_ok h
  exact (vectorErrorsLoop_spec hg k 0 none r h).2

/-- The transforms of the walk. -/
noncomputable def walkRefs : List (Iso ℝ) := [poseToMatrix (still 0 0 0), poseToMatrix (still 1 0 0), poseToMatrix (turned 3 0 0)]

/-- The walk with an offset. -/
def shifted : Traj := [(0, still 0 7 0), (1, still 1 7 0), (2, turned 3 7 0)]

theorem shifted_valid : Valid shifted := by
  intro e he
  simp only [shifted, List.mem_cons, List.not_mem_nil, or_false] at he
  rcases he with rfl | rfl | rfl
  · exact still_valid _ _ _
  · exact still_valid _ _ _
  · exact turned_valid _ _ _

theorem shift (x : ℝ) (q : Quat) : poseToMatrix ⟨![x, 7, 0], q⟩ = ⟨1, ![0, 7, 0]⟩ * poseToMatrix ⟨![x, 0, 0], q⟩ := by
  refine Iso.ext ?_ ?_
  · simp [poseToMatrix, Iso.mul_R]
  · simp [poseToMatrix, Iso.mul_t]

theorem walkRefs_rigid : List.Forall₂ (fun G (_ : ℝ × Pose) => Rigid G) walkRefs shifted :=
  .cons (still_valid _ _ _).rigid (.cons (still_valid _ _ _).rigid (.cons (turned_valid _ _ _).rigid .nil))

/-- C121: a trajectory with a constant offset has no relative errors. -/
example : ∀ e ∈ rpesOf walkRefs shifted, e.2 = 1 :=
  (C121_relative_errors_zero shifted_valid walkRefs_rigid).2 ⟨⟨1, ![0, 7, 0]⟩, ⟨by simp, by simp⟩,
    .cons (shift 0 ⟨1, 0, 0, 0⟩) (.cons (shift 1 ⟨1, 0, 0, 0⟩) (.cons (shift 3 ⟨1, 0, 0, 1⟩) .nil))⟩

end Trajectory

end Serpent
