import Verif.Props.MappingGeometry
import Mathlib.Data.List.Sort

/-!
# Concrete cases for the mapping node

A world of one dimension: poses, positions and points are integers, and the lidar is one step ahead of the body.
-/

namespace Serpent

open EigenExt Mapping

namespace MappingWitness

/-- Distance on the line. -/
def dist (a b : Int) : Nat := (a - b).natAbs

/-- Exact search: all places, sorted by distance. -/
def knn (l : List Int) (q : Int) (k : Nat) : List Nat :=
  ((List.range l.length).insertionSort (fun i j => dist q (l.getD i 0) ≤ dist q (l.getD j 0))).take k

theorem knn_correct (l : List Int) (q : Int) (k : Nat) (hk : k ≤ l.length) : IsKnn (dist q) l k (knn l q k) := by
  let r : Nat → Nat → Prop := fun i j => dist q (l.getD i 0) ≤ dist q (l.getD j 0)
  have : Std.Total r := ⟨fun a b => le_total _ _⟩
  have : IsTrans Nat r := ⟨fun a b c h h' => le_trans h h'⟩
  have hs : ((List.range l.length).insertionSort r).Pairwise r := List.pairwise_insertionSort r _
  have hp : ((List.range l.length).insertionSort r).Perm (List.range l.length) := List.perm_insertionSort r _
  have hval : ∀ {i a}, l[i]? = some a → l.getD i 0 = a := by intro i a h; simp [List.getD, h]
  have hin : ∀ i, i ∈ knn l q k → i < l.length := by
    intro i hi
    exact List.mem_range.1 (hp.mem_iff.1 (List.mem_of_mem_take hi))
  refine ⟨?_, ?_, hin, ?_, ?_⟩
  · show (((List.range l.length).insertionSort r).take k).length = k
    rw [List.length_take, hp.length_eq, List.length_range]
    exact min_eq_left hk
  · exact (hp.nodup_iff.2 List.nodup_range).sublist (List.take_sublist _ _)
  · refine (hs.sublist (List.take_sublist k _)).imp ?_
    intro i j h a b ha hb
    have : r i j := h
    simp only [r, hval ha, hval hb] at this
    exact this
  · intro i hi j hj a b ha hb
    have hjl : j < l.length := by
      by_contra hlt
      rw [List.getElem?_eq_none (not_lt.1 hlt)] at hb
      cases hb
    have hjm : j ∈ (List.range l.length).insertionSort r := hp.mem_iff.2 (List.mem_range.2 hjl)
    rw [← List.take_append_drop k ((List.range l.length).insertionSort r)] at hjm hs
    rcases List.mem_append.1 hjm with h | h
    · exact absurd h hj
    · have := (List.pairwise_append.1 hs).2.2 i hi j h
      simp only [r, hval ha, hval hb] at this
      exact this

/-- The world. -/
def O : Ops Int Int Int where
  toLidar b := b + 1
  far a b := dist a b > 2
  point p := p
  knn := knn
  move target pose x := pose + x - target
  moveMap pose x := pose + x
  voxel l := l.take 1
  lidarFrame := "lidar"
  mapFrame := "map"

/-- Configuration and initial state with nearby frames. -/
def near : Cfg × St Int Int Int := (⟨.nearby, 2, false, true⟩, ⟨[], some [], [], [], [], [], []⟩)
/-- Configuration and initial state with past frames. -/
def past : Cfg × St Int Int Int := (⟨.past, 2, false, true⟩, ⟨[], none, [], [], [], [], []⟩)

theorem near_created : create "NEARBY" 2 false true = .ok near := by rfl
theorem past_created : create "PAST" 2 false true = .ok past := by rfl

example : (create "BOTH" 2 false true : Outcome (Cfg × St Int Int Int)) = .throws := by rfl
example : (create "PAST" 0 false true : Outcome (Cfg × St Int Int Int)) = .throws := by rfl

/-- Three clouds; the second and third path correct earlier poses. -/
def e1 : Event Int Int := .update ⟨10, "lidar", [1, 2]⟩ [(10, 0)]
/-- See `e1`. -/
def e2 : Event Int Int := .update ⟨20, "lidar", [3]⟩ [(10, 1), (20, 10)]
/-- See `e1`. -/
def e3 : Event Int Int := .update ⟨30, "lidar", [4]⟩ [(10, 2), (20, 12), (30, 20)]
/-- States with nearby frames. -/
def n1 : St Int Int Int := (handle O near.1 e1 near.2).2
/-- See `n1`. -/
def n2 : St Int Int Int := (handle O near.1 e2 n1).2
/-- See `n1`. -/
def n3 : St Int Int Int := (handle O near.1 e3 n2).2

theorem n2_reached : Reach O near.1 near.2 [e1, e2] n2 :=
  .step e2 (.step e1 .init (by decide +kernel)) (by decide +kernel)
theorem n3_reached : Reach O near.1 near.2 [e1, e2, e3] n3 := .step e3 n2_reached (by decide +kernel)
theorem n3_fresh : Fresh [e1, e2, e3] := by
  refine ⟨by decide +kernel, ?_⟩
  intro cloud path hm
  simp only [List.mem_cons, List.not_mem_nil, or_false, e1, e2, e3, Event.update.injEq] at hm
  rcases hm with ⟨rfl, rfl⟩ | ⟨rfl, rfl⟩ | ⟨rfl, rfl⟩ <;> decide

-- the map after the three updates: the poses are the latest
example : n3.map = [(10, ⟨3, 10, ⟨10, "lidar", [1, 2]⟩⟩), (20, ⟨13, 20, ⟨20, "lidar", [3]⟩⟩),
    (30, ⟨21, 30, ⟨30, "lidar", [4]⟩⟩)] := by decide +kernel
-- the local maps: the third has the two frames nearest to 21
example : n3.locals = [⟨10, "lidar", [1, 2]⟩, ⟨20, "lidar", [3, -8, -7]⟩, ⟨30, "lidar", [4, -5]⟩] := by decide +kernel
-- the hypotheses of C35, C34 and C83 are met
example : ∀ t f, OMap.find n3.map t = some f →
    f.stamp = t ∧ f.cloud.stamp = t ∧ f.cloud ∈ cloudsOf [e1, e2, e3] ∧
      some f.pose = (lastFor (posesOf [e1, e2, e3]) t).map O.toLidar := C35_latest_pose near_created n3_reached n3_fresh
example : (handle O near.1 e3 n2).1 = .ok () :=
  (C34_in_order_publishes (dist := dist) knn_correct near_created n2_reached rfl n3_fresh (body := 20) (by decide +kernel)
    (by decide +kernel)).1
example := C34_nearby_frames_partial (dist := dist) knn_correct near_created n2_reached rfl n3_fresh (body := 20)
  (by decide +kernel)
example := C35_moves_exactly_the_named_frames near_created n2_reached (cloud := ⟨30, "lidar", [4]⟩)
  (path := [(10, 2), (20, 12), (30, 20)]) (by decide +kernel) (t := 10) (by decide)
example := C35_index_consistent near_created n3_reached rfl
example := C35_nearby_never_undefined near_created n3_reached rfl (.update ⟨5, "lidar", []⟩ [(5, 0)])
example := C83_global_map_partial near_created n3_reached 40 (by decide +kernel) (by
  intro t ht
  obtain ⟨v, hv⟩ := OMap.find_isSome_iff.1 ht
  have : ∀ e ∈ n3.map, e.1 ≤ 40 := by decide +kernel
  exact this _ hv)
example : (handle O near.1 (.globalMap 40) n3).2.globals = [⟨40, "map", [4, 5, 16, 25]⟩] := by decide +kernel
example := C83_pose_graph near_created n3_reached
example : (handle O near.1 .poseGraph n3).2.graphs = [⟨[⟨10, "lidar", [1, 2]⟩, ⟨20, "lidar", [3]⟩, ⟨30, "lidar", [4]⟩],
    [(10, "lidar", 3), (20, "lidar", 13), (30, "lidar", 21)]⟩] := by decide +kernel
-- a frame that has not moved enough is not added, and a local map is published all the same
example : (handle O near.1 (.update ⟨40, "lidar", [9]⟩ [(30, 21), (40, 22)]) n3).2.map.length = 3 := by decide +kernel
example : (handle O near.1 (.update ⟨40, "lidar", [9]⟩ [(30, 21), (40, 22)]) n3).1 = .ok () := by decide +kernel
-- a frame in the future throws
example : (handle O near.1 (.update ⟨25, "lidar", [9]⟩ [(25, 21)]) n3).1 = .throws := by decide +kernel

/-- States with past frames, where no path names a frame of the map. -/
def p1 : St Int Int Int := (handle O past.1 (.update ⟨10, "lidar", [1, 2]⟩ [(10, 0)]) past.2).2
/-- See `p1`. -/
def p2 : St Int Int Int := (handle O past.1 (.update ⟨20, "lidar", [3]⟩ [(20, 10)]) p1).2

theorem p1_reached : Reach O past.1 past.2 [.update ⟨10, "lidar", [1, 2]⟩ [(10, 0)]] p1 := .step _ .init (by decide +kernel)
theorem p2_reached : Reach O past.1 past.2
    [.update ⟨10, "lidar", [1, 2]⟩ [(10, 0)], .update ⟨20, "lidar", [3]⟩ [(20, 10)]] p2 :=
  .step _ p1_reached (by decide +kernel)

example : p2.locals = [⟨10, "lidar", [1, 2]⟩, ⟨20, "lidar", [3, -9, -8]⟩] := by decide +kernel
example := C33_past_frames_partial past_created p1_reached rfl (cloud := ⟨20, "lidar", [3]⟩) (path := [(20, 10)]) (body := 10)
  (by decide +kernel) (by decide +kernel)

end MappingWitness

open MappingWitness

/-- **C35 (negation), C33 (negation).** With past frames, the second cloud already makes the callback dereference a null
pointer: its path names the first frame, as every path of the back end does. -/
theorem C35_fails_past_frames : ∃ (h : List (Event Int Int)) (s : St Int Int Int) (e : Event Int Int),
    create "PAST" 2 false true = .ok past ∧ Reach O past.1 past.2 h s ∧ Fresh (h ++ [e]) ∧
      (handle O past.1 e s).1 = .ub := by
  refine ⟨_, p1, .update ⟨20, "lidar", [3]⟩ [(10, 1), (20, 10)], past_created, p1_reached, ⟨by decide +kernel, ?_⟩,
    by decide +kernel⟩
  intro cloud path hm
  simp only [List.mem_append, List.mem_cons, List.not_mem_nil, or_false, Event.update.injEq] at hm
  rcases hm with ⟨rfl, rfl⟩ | ⟨rfl, rfl⟩ <;> decide

/-- **C33 (negation).** A cloud older than every frame of the map, not moved enough to be added: the search for past frames
runs out of the map. -/
theorem C33_fails_older_cloud : ∃ (h : List (Event Int Int)) (s : St Int Int Int) (cloud : Cloud Int) (path : List (Int × Int)),
    Reach O past.1 past.2 h s ∧ (∀ e ∈ path, e.1 = cloud.stamp) ∧ (handle O past.1 (.update cloud path) s).1 = .ub :=
  ⟨_, p1, ⟨5, "lidar", [7]⟩, [(5, 1)], p1_reached, by decide, by decide +kernel⟩

/-- **C34 (negation).** If a stamp arrives twice (the second time far from the latest frame), the pose cloud gets a second
point for the frame: the local map then contains the points of that frame twice, and no longer the two nearest frames. -/
theorem C34_fails_repeated_stamp : ∃ (h : List (Event Int Int)) (s : St Int Int Int) (cloud : Cloud Int) (body : Int),
    Reach O near.1 near.2 h s ∧ (handle O near.1 (.update cloud [(cloud.stamp, body)]) s).1 = .ok () ∧
      s.map.length = 2 ∧
      ¬ ∃ fs, NearestMembers ((handle O near.1 (.update cloud [(cloud.stamp, body)]) s).2.map.map (·.2))
          (fun f => MappingWitness.dist (O.point (O.toLidar body)) (O.point f.pose)) 2 fs ∧
        (handle O near.1 (.update cloud [(cloud.stamp, body)]) s).2.locals = s.locals ++
          [⟨cloud.stamp, "lidar", fs.flatMap (fun f => f.cloud.points.map (O.move (O.toLidar body) f.pose))⟩] := by
  refine ⟨_, _, ⟨40, "lidar", []⟩, 10, .step (.update ⟨20, "lidar", [3]⟩ [(20, 20)])
    (.step (.update ⟨20, "lidar", [3]⟩ [(20, 10)]) (.step (.update ⟨10, "lidar", [1, 2]⟩ [(10, -50)]) .init
    (by decide +kernel)) (by decide +kernel)) (by decide +kernel), by decide +kernel, by decide +kernel, ?_⟩
  rintro ⟨fs, hn, hl⟩
  generalize hm : (handle O near.1 (.update ⟨40, "lidar", []⟩ [((⟨40, "lidar", []⟩ : Cloud Int).stamp, (10 : Int))])
    (handle O near.1 (.update ⟨20, "lidar", [3]⟩ [(20, 20)]) (handle O near.1 (.update ⟨20, "lidar", [3]⟩ [(20, 10)])
    (handle O near.1 (.update ⟨10, "lidar", [1, 2]⟩ [(10, -50)]) near.2).2).2).2).2.map.map (·.2) = members at hn
  have hm' : members = [⟨-49, 10, ⟨10, "lidar", [1, 2]⟩⟩, ⟨11, 20, ⟨20, "lidar", [3]⟩⟩] := by
    rw [← hm]
    decide +kernel
  subst hm'
  have hlen := hn.length
  match fs, hn, hlen with
  | [x, y], hn, _ =>
    have hx := hn.member x (by simp)
    have hy := hn.member y (by simp)
    have hnd := hn.nodup
    simp only [List.mem_cons, List.not_mem_nil, or_false] at hx hy
    rcases hx with rfl | rfl <;> rcases hy with rfl | rfl
    · simp at hnd
    · revert hl
      decide +kernel
    · revert hl
      decide +kernel
    · simp at hnd

/-- **C83 (negation).** The parameter for filtering the global map has no effect: with filtering of the global map disabled
and of the local map enabled the global map is filtered, and the other way round it is not. -/
theorem C83_fails_global_flag :
    (∀ (P V X : Type) (O : Ops P V X) (m : Method) (n : Nat) (l g g' : Bool) (now : Int) (s : St P V X),
      handle O ⟨m, n, l, g⟩ (.globalMap now) s = handle O ⟨m, n, l, g'⟩ (.globalMap now) s) ∧
    (handle O ⟨.nearby, 2, true, false⟩ (.globalMap 40) n3).2.globals = [⟨40, "map", [4]⟩] ∧
    (handle O ⟨.nearby, 2, false, true⟩ (.globalMap 40) n3).2.globals = [⟨40, "map", [4, 5, 16, 25]⟩] :=
  ⟨fun _ _ _ _ _ _ _ _ _ _ _ => rfl, by decide +kernel, by decide +kernel⟩

end Serpent
