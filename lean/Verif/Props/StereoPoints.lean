import Verif.Model.StereoPoints
import Verif.Props.BackEnd
import Verif.Props.Isam

/-!
# The cloud of stereo landmarks (C153)
-/

namespace Serpent

namespace BackEnd

open Graph M

variable {Val D O C I P : Type}

theorem landmarkPoints_eq (cast : Val → P) (m : OMap Int Val) : landmarkPoints cast m = m.map fun e => cast e.2 := by
  have h : ∀ (m : OMap Int Val) (acc : List P), m.foldl (fun cloud e => cloud ++ [cast e.2]) acc = acc ++ m.map fun e => cast e.2 := by
    intro m
    induction m with
    | nil => intro acc; simp
    | cons e m ih =>
      intro acc
      rw [List.foldl_cons, ih, List.map_cons, List.append_assoc]
      rfl
  simpa [landmarkPoints] using h m []

theorem landmarksOf_sorted (s : GM Val D) (ids : List Int) : ∀ (acc m : OMap Int Val), acc.Sorted → landmarksOf s ids acc = .ok m →
    m.Sorted := by
  induction ids with
  | nil =>
    intro acc m ha h
    cases h
    exact ha
  | cons id ids ih =>
    intro acc m ha h
    unfold landmarksOf at h
    cases hv : getVal s .S id with
    | throws => rw [hv] at h; cases h
    | ub => rw [hv] at h; cases h
    | ok v =>
      rw [hv] at h
      exact ih _ m (OMap.sorted_emplace ha _ _) h

/-- **C153.** The cloud contains one point for each landmark that was seen in two successive frames, and no other: the points are
those of the current estimates, in the order of the ids. It is in the map frame, and its stamp is that of the odometry without
the part below a microsecond. It is published in every history of the graph manager, also after variables are marginalised. -/
theorem C153_points {er : EndRead} {opt : OptApi Val D O} {o : O} {log : ILog Val D} {s : RIsam Val D O}
    (h : IReaches er opt o log s) (hok : StereoOk (calls log).reverse) (cast : Val → P) (mapFrame : String) (t : Int) :
    ∃ l : List (Int × Val), (l.map Prod.fst).Pairwise (· < ·) ∧
      (∀ id v, (id, v) ∈ l ↔ Tracked id (frames (calls log).reverse) ∧ stereoLandmark s.gm id = .ok v) ∧
      stereoPointsMessage cast mapFrame t s.gm = .ok ⟨t / 1000, mapFrame, l.map fun e => cast e.2⟩ := by
  obtain ⟨glog, hl⟩ := link_exists h
  obtain ⟨m, hm, hf⟩ := C11_all_landmarks hl.reaches (hl.stereo hok)
  have hs : m.Sorted := by
    unfold stereoLandmarks at hm
    rw [if_pos rfl] at hm
    exact landmarksOf_sorted _ _ _ _ OMap.sorted_nil hm
  refine ⟨m, ?_, fun id v => ?_, ?_⟩
  · exact List.pairwise_map.2 hs
  · rw [← hl.frames, ← hf]
    exact ⟨fun he => OMap.find_of_mem hs he, fun he => OMap.mem_of_find he⟩
  · unfold stereoPointsMessage
    rw [hm, Outcome.bind_ok, landmarkPoints_eq]

/-- **C153.** Each of these landmarks has an estimate, so that none is left out. -/
theorem C153_all {er : EndRead} {opt : OptApi Val D O} {o : O} {log : ILog Val D} {s : RIsam Val D O}
    (h : IReaches er opt o log s) (hok : StereoOk (calls log).reverse) (id : Int)
    (ht : Tracked id (frames (calls log).reverse)) : ∃ v, stereoLandmark s.gm id = .ok v := by
  obtain ⟨glog, hl⟩ := link_exists h
  have hg := hl.stereo hok
  rw [← hl.frames] at ht
  obtain ⟨k, hk⟩ := (tracked_iff_tracks (stereoOk_frames hg)).1 ht
  refine landmarks_valued hl.reaches (k := k) ?_
  rw [landmarks_invariant hl.reaches hg k]
  exact mem_tracks_of_lookup.2 hk

/-- **C153.** The option changes nothing else: the same messages are published, and the same is kept. If they are published, the
cloud is published too, whatever the history of the graph manager. -/
theorem C153_others {er : EndRead} {opt : OptApi Val D O} {o : O} {log : ILog Val D}
    (cast : Val → P) (api : Api Val D (O × List (Event Val D)) C I) (cfg : Cfg) (k : Int) (s : BE Val D (O × List (Event Val D)))
    (h : IReaches er opt o log s.isam) :
    (publishDebug cast api cfg true k s).2 = (publish api cfg k s).2 ∧
    ((publish api cfg k s).1 = .ok () → ∃ t m, timestamp s.isam.gm k = .ok t ∧
      stereoPointsMessage cast cfg.mapFrame t s.isam.gm = .ok m ∧ (publishDebug cast api cfg true k s).1 = .ok (some m)) ∧
    ((publish api cfg k s).1 = .throws → (publishDebug cast api cfg true k s).1 = .throws) ∧
    publishDebug cast api cfg false k s = ((publish api cfg k s).1 >>= fun _ => .ok none, (publish api cfg k s).2) := by
  obtain ⟨glog, hl⟩ := link_exists h
  unfold publishDebug
  rw [bind_run, bind_run]
  rcases hp : publish api cfg k s with ⟨r, s'⟩
  cases r with
  | throws => exact ⟨rfl, fun h => (by cases h), fun _ => rfl, rfl⟩
  | ub => exact ⟨rfl, fun h => (by cases h), fun h => (by cases h), rfl⟩
  | ok u =>
    obtain ⟨t, p, v, b, path, ht, -, -, -, -, hs'⟩ := C22_published api cfg k s s' hp
    have hg : s'.isam = s.isam := by rw [hs']
    refine ⟨rfl, fun _ => ?_, fun h => (by cases h), rfl⟩
    obtain ⟨m, hm⟩ := C11_query_never_throws hl.reaches (-1)
    refine ⟨t, ⟨t / 1000, cfg.mapFrame, landmarkPoints cast m⟩, ht, ?_, ?_⟩
    · unfold stereoPointsMessage
      rw [hm]
      rfl
    · show (timestamp s'.isam.gm k >>= fun t => stereoPointsMessage cast cfg.mapFrame t s'.isam.gm >>= fun m => .ok (some m)) = _
      unfold stereoPointsMessage
      rw [hg, ht, hm]
      rfl

/-- After the demonstration history the landmark 7 is published, and 8, which was seen once, is not. -/
example : stereoPointsMessage (fun v : Nat => v + 1) "map" 1234567 demoIsamState.gm = .ok ⟨1234, "map", [135]⟩ := by decide +kernel

end BackEnd

end Serpent
