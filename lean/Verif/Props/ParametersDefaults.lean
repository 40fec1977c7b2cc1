import Verif.Lemmas.Parameters

/-!
# C127: an option that is left out has the value of the configuration files

The files in serpent/config are called defaults; a user copies one of them and deletes lines.
-/

namespace Serpent

namespace Params

set_option Elab.async false

variable {cv : OpenCv} {frames : String → Bool}

/-- Every call for this option has this value as its default, or the option is listed. -/
def defaultOrListed (e : String × Value) : Bool :=
  decide (e.1 ∈ otherwiseIfLeftOut) || reads.all fun r => !decide (r.name = e.1) || r.isDefault e.2

theorem shipped_defaultOrListed_0 : ((shipped.drop 0).take 30).all defaultOrListed = true := by decide +kernel

theorem shipped_defaultOrListed_1 : ((shipped.drop 30).take 30).all defaultOrListed = true := by decide +kernel

theorem shipped_defaultOrListed_2 : ((shipped.drop 60).take 30).all defaultOrListed = true := by decide +kernel

theorem shipped_defaultOrListed_3 : ((shipped.drop 90).take 30).all defaultOrListed = true := by decide +kernel

theorem shipped_defaultOrListed_4 : ((shipped.drop 120).take 30).all defaultOrListed = true := by decide +kernel

theorem shipped_defaultOrListed_5 : ((shipped.drop 150).take 30).all defaultOrListed = true := by decide +kernel

theorem shipped_defaultOrListed_6 : ((shipped.drop 180).take 30).all defaultOrListed = true := by decide +kernel

theorem shipped_defaultOrListed_7 : (shipped.drop 210).all defaultOrListed = true := by decide +kernel

theorem shipped_defaultOrListed : shipped.all defaultOrListed = true := by
  have split : ∀ (l : List (String × Value)) (f : String × Value → Bool), l.all f = ((l.take 30).all f && (l.drop 30).all f) := by
    intro l f
    rw [← List.all_append, List.take_append_drop]
  have h0 : (shipped.drop 0).all defaultOrListed = ((shipped.drop 30).all defaultOrListed) := by
    rw [split, shipped_defaultOrListed_0, Bool.true_and, List.drop_drop]
  have h1 : (shipped.drop 30).all defaultOrListed = ((shipped.drop 60).all defaultOrListed) := by
    rw [split, shipped_defaultOrListed_1, Bool.true_and, List.drop_drop]
  have h2 : (shipped.drop 60).all defaultOrListed = ((shipped.drop 90).all defaultOrListed) := by
    rw [split, shipped_defaultOrListed_2, Bool.true_and, List.drop_drop]
  have h3 : (shipped.drop 90).all defaultOrListed = ((shipped.drop 120).all defaultOrListed) := by
    rw [split, shipped_defaultOrListed_3, Bool.true_and, List.drop_drop]
  have h4 : (shipped.drop 120).all defaultOrListed = ((shipped.drop 150).all defaultOrListed) := by
    rw [split, shipped_defaultOrListed_4, Bool.true_and, List.drop_drop]
  have h5 : (shipped.drop 150).all defaultOrListed = ((shipped.drop 180).all defaultOrListed) := by
    rw [split, shipped_defaultOrListed_5, Bool.true_and, List.drop_drop]
  have h6 : (shipped.drop 180).all defaultOrListed = ((shipped.drop 210).all defaultOrListed) := by
    rw [split, shipped_defaultOrListed_6, Bool.true_and, List.drop_drop]
  exact h0.trans (h1.trans (h2.trans (h3.trans (h4.trans (h5.trans (h6.trans shipped_defaultOrListed_7))))))

/-- Every call for one of these options has the value of the file as its default. -/
theorem shipped_isDefault (e : String × Value) (he : e ∈ shipped) (hn : e.1 ∉ otherwiseIfLeftOut) (r : Read) (hr : r ∈ reads)
    (hk : r.name = e.1) : r.isDefault e.2 = true := by
  have h1 := List.all_eq_true.mp shipped_defaultOrListed e he
  unfold defaultOrListed at h1
  rw [decide_eq_false hn, Bool.false_or] at h1
  have h2 := List.all_eq_true.mp h1 r hr
  rw [decide_eq_true hk] at h2
  simpa using h2

/-- Let `p` have more options than `q`, all with the values of the configuration files, and none of the twenty-eight listed in
`otherwiseIfLeftOut`. Then all processes are the same with `p` and with `q`, whatever else is set in both. -/
theorem C127_left_out_partial {p q : Server} (h : ∀ k, p k = q k ∨
    (q k = none ∧ k ∉ otherwiseIfLeftOut ∧ ∃ v, p k = some v ∧ (k, v) ∈ shipped)) :
    single cv frames p = single cv frames q ∧ frontProcess frames p = frontProcess frames q ∧
      backProcess cv frames p = backProcess cv frames q ∧ stereoProcess cv p = stereoProcess cv q := by
  have hs : ∀ r ∈ reads, r.Same p q := by
    intro r hr
    rcases h r.name with h | ⟨h0, hn, v, hv, hm⟩
    · exact same_of_eq r h
    · have h1 := same_set_default (p := q) r h0 rfl (shipped_isDefault _ hm hn r hr rfl)
      have h2 : r.Same p (q.set r.name v) := same_of_eq r (by simp only [Server.set, if_true]; exact hv)
      cases r <;> simp only [Read.Same] at h1 h2 ⊢ <;> exact h2.trans h1
  exact ⟨single_same hs, frontProcess_same hs, backProcess_same hs, stereoProcess_same hs⟩

/-- One line of a file can be deleted. -/
theorem C127_delete_line_partial {p : Server} {k : String} {v : Value} (hk : (k, v) ∈ shipped) (hn : k ∉ otherwiseIfLeftOut)
    (hp : p k = some v) : single cv frames (p.erase k) = single cv frames p := by
  refine (C127_left_out_partial fun n => ?_).1.symm
  by_cases e : n = k
  · subst e
    exact .inr ⟨by simp [Server.erase], hn, v, hp, hk⟩
  · exact .inl (by simp [Server.erase, e])

/-- All lines but twenty-eight can be deleted at once. -/
theorem C127_delete_all_partial : single cv frames (fun k => if k ∈ otherwiseIfLeftOut then shippedServer k else none) =
    single cv frames shippedServer := by
  refine (C127_left_out_partial fun k => ?_).1.symm
  by_cases hk : k ∈ otherwiseIfLeftOut
  · exact .inl (by simp [hk])
  · cases hs : shippedServer k with
    | none => exact .inl (by simp [hk])
    | some v =>
      refine .inr ⟨by simp [hk], hk, v, rfl, ?_⟩
      unfold shippedServer at hs
      obtain ⟨e, he, rfl⟩ := Option.map_eq_some_iff.mp hs
      have h1 := List.find?_some he
      have h2 := List.mem_of_find?_eq_some he
      have h3 : e.1 = k := by simpa using h1
      rw [← h3]
      exact h2

/-- The configuration files with the random sample and the filter of distances switched on. -/
def shippedAll : Server :=
  (shippedServer.set "random_sample_filter/enabled" (.bool true)).set "stereo_tracking/stereo_distance_filter/enabled" (.bool true)

/-- The node starts with both, and consists of other components. -/
def startsOtherwise (p q : Server) : Bool :=
  match single ⟨4, 4⟩ shippedFrames p, single ⟨4, 4⟩ shippedFrames q with
  | .ok s, .ok t => decide (s ≠ t)
  | _, _ => false

/-- **The property fails** for twenty-eight options: with the configuration files (and two filters switched on), deleting the line
of the option leaves a node that starts and has other components. -/
theorem C127_fails_left_out : ∀ k ∈ otherwiseIfLeftOut, (∃ v, (k, v) ∈ shipped ∧ shippedAll k = some v) ∧
    ∃ s t, single ⟨4, 4⟩ shippedFrames shippedAll = .ok s ∧ single ⟨4, 4⟩ shippedFrames (shippedAll.erase k) = .ok t ∧ s ≠ t := by
  have h1 : ∀ k ∈ otherwiseIfLeftOut, startsOtherwise shippedAll (shippedAll.erase k) = true := by decide +kernel
  have h2 : ∀ k ∈ otherwiseIfLeftOut, k ∈ shipped.map Prod.fst ∧ shippedAll k = shippedServer k ∧ (shippedServer k).isSome = true := by
    decide +kernel
  intro k hk
  refine ⟨?_, ?_⟩
  · obtain ⟨-, h3, h4⟩ := h2 k hk
    obtain ⟨v, hv⟩ := Option.isSome_iff_exists.mp h4
    refine ⟨v, ?_, h3.trans hv⟩
    unfold shippedServer at hv
    obtain ⟨e, he, rfl⟩ := Option.map_eq_some_iff.mp hv
    have h5 : e.1 = k := by simpa using List.find?_some he
    rw [← h5]
    exact List.mem_of_find?_eq_some he
  · have h := h1 k hk
    unfold startsOtherwise at h
    cases hs : single ⟨4, 4⟩ shippedFrames shippedAll with
    | ok s =>
      cases ht : single ⟨4, 4⟩ shippedFrames (shippedAll.erase k) with
      | ok t => rw [hs, ht] at h; exact ⟨s, t, rfl, rfl, by simpa using h⟩
      | throws => rw [hs, ht] at h; cases h
      | ub => rw [hs, ht] at h; cases h
    | throws => rw [hs] at h; cases h
    | ub => rw [hs] at h; cases h

/-- The covariance that the node computes, and the point type. -/
def covarianceOf (p : Server) : Option (Bool × Option Lidar.PointMethod) :=
  match single ⟨4, 4⟩ shippedFrames p with
  | .ok s => s.lidar.map fun l => (l.2.registration.unit, l.2.registration.members.pointMethod)
  | _ => none

/-- The most serious: without its line the noise of points is not constant (the comment in the file says "CONSTANT (default)") but
along the rays, and pointclouds need unit vectors. -/
theorem C127_fails_point_covariance :
    covarianceOf shippedServer = some (false, some .constant) ∧
    covarianceOf (shippedServer.erase "registration_covariance/point_covariance/method") = some (true, some .range) := by
  constructor <;> decide +kernel

/-- Without any configuration file features are detected with ORB, matched with SAD in windows of three by three pixels, and the map
is made of ten frames one metre apart; with the files: GFTT, SSD, seven by seven, twenty frames ten centimetres apart. -/
theorem C127_fails_no_files : ∃ s t l m u v, single ⟨4, 4⟩ shippedFrames shippedServer = .ok s ∧
    single ⟨4, 4⟩ shippedFrames (fun _ => none) = .ok t ∧ s.lidar = some l ∧ t.lidar = some m ∧ s.stereo = some u ∧
    t.stereo = some v ∧ (∃ g, u.detector = .gftt g) ∧ (∃ o, v.detector = .orb o) ∧ u.matcher.cost = .ssd ∧ v.matcher.cost = .sad ∧
    u.matcher.width = 7 ∧ v.matcher.width = 3 ∧ l.2.mapping.number = 20 ∧ m.2.mapping.number = 10 ∧
    l.2.mapping.distanceThreshold = 1 / 10 ∧ m.2.mapping.distanceThreshold = 1 := by
  have h : (match single ⟨4, 4⟩ shippedFrames shippedServer, single ⟨4, 4⟩ shippedFrames (fun _ => none) with
    | .ok s, .ok t => (match s.lidar, t.lidar, s.stereo, t.stereo with
      | some l, some m, some u, some v =>
        (match u.detector with | .gftt _ => true | _ => false) && (match v.detector with | .orb _ => true | _ => false) &&
        decide (u.matcher.cost = .ssd ∧ v.matcher.cost = .sad ∧
    u.matcher.width = 7 ∧ v.matcher.width = 3 ∧ l.2.mapping.number = 20 ∧ m.2.mapping.number = 10 ∧
    l.2.mapping.distanceThreshold = 1 / 10 ∧ m.2.mapping.distanceThreshold = 1)
      | _, _, _, _ => false)
    | _, _ => false) = true := by decide +kernel
  split at h
  · rename_i s t hs ht
    split at h
    · rename_i l m u v hl hm hu hv
      simp only [Bool.and_eq_true, decide_eq_true_eq] at h
      obtain ⟨⟨h1, h2⟩, h3⟩ := h
      refine ⟨s, t, l, m, u, v, hs, ht, hl, hm, hu, hv, ?_, ?_, h3⟩
      · cases hd : u.detector <;> rw [hd] at h1 <;> first | exact ⟨_, rfl⟩ | cases h1
      · cases hd : v.detector <;> rw [hd] at h2 <;> first | exact ⟨_, rfl⟩ | cases h2
    · cases h
  · cases h

/-- A line that can be deleted, from the configuration files. -/
example : ("voxel_grid_filter/leaf_size", Value.double 0.1) ∈ shipped ∧ "voxel_grid_filter/leaf_size" ∉ otherwiseIfLeftOut ∧
    shippedServer "voxel_grid_filter/leaf_size" = some (.double 0.1) := by
  refine ⟨by decide +kernel, by decide +kernel, by decide +kernel⟩

end Params

end Serpent
