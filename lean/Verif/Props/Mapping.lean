import Verif.Lemmas.MappingExtract
import Verif.Lemmas.Quaternion
import Verif.Lemmas.Iso
import Verif.Model.MappingReal

/-!
# Properties of the mapping node (C32, C33, C34, C35, C83, C84)

`create` is the constructor, `Reach O c s0 h s` says that the callbacks and service calls of the history `h` lead from the
initial state `s0` to `s`. The theorems before the section on geometry hold for every geometry `O`.
-/

namespace Serpent

open EigenExt Mapping

variable {P V X : Type} {O : Ops P V X} {c : Cfg} {s0 s : St P V X} {h : List (Event P X)}
  {method : String} {number : Int} {voxelLocal voxelGlobal : Bool}

/-- Clouds received. -/
def cloudsOf (h : List (Event P X)) : List (Cloud X) :=
  h.filterMap fun e => match e with | .update cloud _ => some cloud | _ => none

/-- All path poses received, in the order of reception. -/
def posesOf (h : List (Event P X)) : List (Int × P) :=
  h.flatMap fun e => match e with | .update _ path => path | _ => []

/-- Clouds have different stamps, and a path lists the stamp of its cloud at most once. -/
structure Fresh (h : List (Event P X)) : Prop where
  stamps : ((cloudsOf h).map (·.stamp)).Nodup
  once : ∀ cloud path, Event.update cloud path ∈ h → (path.filter (fun e => e.1 = cloud.stamp)).length ≤ 1

theorem cloudsOf_append (h h' : List (Event P X)) : cloudsOf (h ++ h') = cloudsOf h ++ cloudsOf h' := List.filterMap_append

theorem Fresh.init {h h' : List (Event P X)} (hf : Fresh (h ++ h')) : Fresh h :=
  ⟨by
    have := hf.stamps
    rw [cloudsOf_append, List.map_append] at this
    exact this.of_append_left,
   fun cloud path hm => hf.once cloud path (List.mem_append_left _ hm)⟩

theorem mem_cloudsOf {cloud : Cloud X} {h : List (Event P X)} :
    cloud ∈ cloudsOf h ↔ ∃ path, Event.update cloud path ∈ h := by
  unfold cloudsOf
  rw [List.mem_filterMap]
  constructor
  · rintro ⟨e, he, h⟩
    cases e with
    | update cl path => cases h; exact ⟨path, he⟩
    | poseGraph => cases h
    | globalMap now => cases h
  · rintro ⟨path, hp⟩
    exact ⟨_, hp, rfl⟩

/-- Where a frame of the map comes from. -/
theorem reach_cloud (h0 : create method number voxelLocal voxelGlobal = .ok (c, s0)) (hr : Reach O c s0 h s) :
    ∀ t f, OMap.find s.map t = some f → f.cloud ∈ cloudsOf h ∧ f.cloud.stamp = t := by
  obtain ⟨hi0, _, hm0, _⟩ := inv_init O h0
  induction hr with
  | init => intro t f hf; rw [hm0] at hf; cases hf
  | @step h s e hr hu ih =>
    obtain ⟨hi, _⟩ := reach_inv O hr hi0
    intro t f hf
    rw [cloudsOf_append]
    cases e with
    | update cloud path =>
      rcases mapUpdate_spec O (c := c) (cloud := cloud) (path := path) hi with ⟨r, s1, _, sp, h1, _⟩ | ⟨hub, _⟩
      swap
      · exact absurd hub hu
      change OMap.find (mapUpdate O c cloud path s).2.map t = some f at hf
      rw [h1] at hf
      by_cases ht : t = cloud.stamp
      · subst ht
        cases ho : OMap.find s.map cloud.stamp with
        | none =>
          obtain ⟨b, _, rfl⟩ := sp.shape f hf ho
          exact ⟨List.mem_append_right _ (by simp [cloudsOf]), rfl⟩
        | some g =>
          rw [sp.present g ho] at hf
          cases hf
          exact ⟨List.mem_append_left _ (ih _ _ ho).1, (ih _ _ ho).2⟩
      · rw [sp.others t ht] at hf
        cases ho : OMap.find s.map t with
        | none => rw [ho] at hf; cases hf
        | some g =>
          rw [ho] at hf
          cases hf
          exact ⟨List.mem_append_left _ (ih _ _ ho).1, (ih _ _ ho).2⟩
    | poseGraph => exact ⟨List.mem_append_left _ (ih t f hf).1, (ih t f hf).2⟩
    | globalMap now => exact ⟨List.mem_append_left _ (ih t f hf).1, (ih t f hf).2⟩

/-- A stamp that has not been received is not in the map. -/
theorem reach_new (h0 : create method number voxelLocal voxelGlobal = .ok (c, s0)) (hr : Reach O c s0 h s) {cloud : Cloud X}
    (hn : cloud.stamp ∉ (cloudsOf h).map (·.stamp)) : OMap.find s.map cloud.stamp = none := by
  cases hf : OMap.find s.map cloud.stamp with
  | none => rfl
  | some f =>
    obtain ⟨a, b⟩ := reach_cloud h0 hr _ _ hf
    exact absurd (List.mem_map.2 ⟨_, a, b⟩) hn

theorem Fresh.last {cloud : Cloud X} {path : List (Int × P)} (hf : Fresh (h ++ [Event.update cloud path])) :
    cloud.stamp ∉ (cloudsOf h).map (·.stamp) := by
  have := hf.stamps
  rw [cloudsOf_append, List.map_append] at this
  have hd := List.nodup_append.1 this
  intro hm
  exact hd.2.2 _ hm _ (by simp [cloudsOf]) rfl

theorem reach_single (h0 : create method number voxelLocal voxelGlobal = .ok (c, s0)) (hr : Reach O c s0 h s)
    (hf : Fresh h) : Single s := by
  obtain ⟨hi0, hs0, _⟩ := inv_init O h0
  induction hr with
  | init => exact hs0
  | @step h s e hr hu ih =>
    obtain ⟨hi, _⟩ := reach_inv O hr hi0
    have hsi := ih hf.init
    cases e with
    | update cloud path =>
      rcases mapUpdate_spec O (c := c) (cloud := cloud) (path := path) hi with ⟨r, s1, _, sp, _, h2, h3, h4, _⟩ | ⟨hub, _⟩
      swap
      · exact absurd hub hu
      exact (sp.single (reach_new h0 hr hf.last) (hf.once cloud path (by simp)) hsi).congr h2 h3 h4
    | poseGraph => exact hsi.congr rfl rfl rfl
    | globalMap now => exact hsi.congr rfl rfl rfl

/-! ## C35: pose updates -/

/-- **C35.** A map update sets the pose of every map frame the path names to the pose listed last for it, and changes nothing
else of the frames that were in the map (the frame of the new cloud is the subject of C32). -/
theorem C35_moves_exactly_the_named_frames (h0 : create method number voxelLocal voxelGlobal = .ok (c, s0))
    (hr : Reach O c s0 h s) {cloud : Cloud X} {path : List (Int × P)}
    (hu : (handle O c (.update cloud path) s).1 ≠ .ub) {t : Int} (ht : t ≠ cloud.stamp) :
    OMap.find (handle O c (.update cloud path) s).2.map t = (OMap.find s.map t).map fun f =>
      { f with pose := match lastFor path t with
          | some body => O.toLidar body
          | none => f.pose } := by
  obtain ⟨hi, _⟩ := reach_inv O hr (inv_init O h0).1
  rcases mapUpdate_spec O (c := c) (cloud := cloud) (path := path) hi with ⟨r, s1, _, sp, h1, _⟩ | ⟨hub, _⟩
  swap
  · exact absurd hub hu
  change OMap.find (mapUpdate O c cloud path s).2.map t = _
  rw [h1, sp.others t ht]
  congr 1
  funext f
  unfold correct
  cases lastFor path t <;> rfl

/-- **C35.** The index of the nearest neighbour search agrees with the map: every frame has a place in the pose cloud, with
the point of its pose, and the place leads back to the frame. If no stamp is used twice, there are no other places. -/
theorem C35_index_consistent (h0 : create method number voxelLocal voxelGlobal = .ok (c, s0)) (hr : Reach O c s0 h s)
    (hm : c.method = .nearby) :
    ∃ pc, s.poseCloud = some pc ∧
      (∀ t f, OMap.find s.map t = some f →
        ∃ i, OMap.find s.indices t = some i ∧ OMap.find s.timestamps i = some t ∧ pc[i]? = some (O.point f.pose)) ∧
      (Fresh h → pc.length = s.map.length) := by
  obtain ⟨hi0, _, _, hp0, _⟩ := inv_init O h0
  obtain ⟨hi, hp⟩ := reach_inv O hr hi0
  rw [Bool.eq_iff_iff] at hp
  obtain ⟨pc, hpc⟩ := Option.isSome_iff_exists.1 (hp.2 (hp0.2 hm))
  refine ⟨pc, hpc, ?_, ?_⟩
  · intro t f hf
    have := hi.indexed pc hpc t
    rw [hf] at this
    cases hx : OMap.find s.indices t with
    | none => rw [hx] at this; cases this
    | some i => exact ⟨i, rfl, hi.back pc hpc t i hx, hi.point pc hpc t i f hx hf⟩
  · intro hf
    exact length_eq O hi (reach_single h0 hr hf) hpc

theorem posesOf_append (h h' : List (Event P X)) : posesOf (h ++ h') = posesOf h ++ posesOf h' := List.flatMap_append

/-- **C35.** Over any history: a map frame holds the cloud received with its stamp, at the pose received last for its stamp. -/
theorem C35_latest_pose (h0 : create method number voxelLocal voxelGlobal = .ok (c, s0)) (hr : Reach O c s0 h s)
    (hf : Fresh h) : ∀ t f, OMap.find s.map t = some f →
      f.stamp = t ∧ f.cloud.stamp = t ∧ f.cloud ∈ cloudsOf h ∧ some f.pose = (lastFor (posesOf h) t).map O.toLidar := by
  suffices hh : ∀ t f, OMap.find s.map t = some f → some f.pose = (lastFor (posesOf h) t).map O.toLidar by
    intro t f hft
    obtain ⟨hi, _⟩ := reach_inv O hr (inv_init O h0).1
    exact ⟨(hi.stamp t f hft).1, (hi.stamp t f hft).2, (reach_cloud h0 hr t f hft).1, hh t f hft⟩
  obtain ⟨hi0, _, hm0, _⟩ := inv_init O h0
  induction hr with
  | init => intro t f hf; rw [hm0] at hf; cases hf
  | @step h s e hr hu ih =>
    obtain ⟨hi, _⟩ := reach_inv O hr hi0
    have ih := ih hf.init
    intro t f hft
    rw [posesOf_append]
    cases e with
    | update cloud path =>
      rcases mapUpdate_spec O (c := c) (cloud := cloud) (path := path) hi with ⟨r, s1, _, sp, h1, _⟩ | ⟨hub, _⟩
      swap
      · exact absurd hub hu
      change OMap.find (mapUpdate O c cloud path s).2.map t = some f at hft
      rw [h1] at hft
      have hpath : posesOf [Event.update cloud path] = path := by simp [posesOf]
      rw [hpath, lastFor_append]
      have hnew := reach_new h0 hr hf.last
      by_cases ht : t = cloud.stamp
      · subst ht
        obtain ⟨b, hb, rfl⟩ := sp.shape f hft hnew
        have : lastFor path cloud.stamp = some b := by
          have honce := hf.once cloud path (by simp)
          have hmem : (cloud.stamp, b) ∈ path.filter (fun e => e.1 = cloud.stamp) := List.mem_filter.2 ⟨hb, by simp⟩
          unfold lastFor
          cases hx : path.filter (fun e => e.1 = cloud.stamp) with
          | nil => rw [hx] at hmem; cases hmem
          | cons a l =>
            rw [hx] at hmem honce
            cases l with
            | cons _ _ => simp at honce
            | nil =>
              rw [List.mem_singleton] at hmem
              rw [← hmem]
              rfl
        rw [this]
        rfl
      · rw [sp.others t ht] at hft
        cases ho : OMap.find s.map t with
        | none => rw [ho] at hft; cases hft
        | some g =>
          rw [ho] at hft
          cases hft
          have := ih t g ho
          unfold correct
          cases hl : lastFor path t with
          | none => rw [Option.none_or]; exact this
          | some b => rfl
    | poseGraph =>
      have : posesOf [(Event.poseGraph : Event P X)] = [] := rfl
      rw [this, List.append_nil]
      exact ih t f hft
    | globalMap now =>
      have : posesOf [(Event.globalMap now : Event P X)] = [] := rfl
      rw [this, List.append_nil]
      exact ih t f hft

/-- **C35.** With nearby frames, no callback has undefined behaviour, whatever is received. -/
theorem C35_nearby_never_undefined (h0 : create method number voxelLocal voxelGlobal = .ok (c, s0)) (hr : Reach O c s0 h s)
    (hm : c.method = .nearby) (e : Event P X) : (handle O c e s).1 ≠ .ub := by
  obtain ⟨hi0, _, _, hp0, _⟩ := inv_init O h0
  obtain ⟨hi, hp⟩ := reach_inv O hr hi0
  cases e with
  | poseGraph => intro h; cases h
  | globalMap now => intro h; cases h
  | update cloud path =>
    have hsome : s.poseCloud.isSome := by rw [hp]; exact hp0.2 hm
    intro hub
    change (mapUpdate O c cloud path s).1 = .ub at hub
    rcases mapUpdate_spec O (c := c) (cloud := cloud) (path := path) hi with
      ⟨r, s1, _, sp, _, _, _, _, _, _, hout⟩ | ⟨_, hn, _⟩
    · cases hl : lastFor path cloud.stamp with
      | none => rw [hl] at hout; rw [hout.1] at hub; cases hub
      | some body =>
        rw [hl, hm] at hout
        dsimp only at hout
        have hmode : s1.poseCloud.isSome := by rw [sp.mode]; exact hsome
        obtain ⟨pc, hpc⟩ := Option.isSome_iff_exists.1 hmode
        have framesAt_ub : ∀ is, framesAt s1 is ≠ .ub := by
          intro is
          induction is with
          | nil => intro h; cases h
          | cons i is ih =>
            unfold framesAt
            cases OMap.find s1.timestamps i with
            | none => intro h; cases h
            | some t =>
              dsimp only
              cases OMap.find s1.map t with
              | none => intro h; cases h
              | some f =>
                dsimp only
                cases hx : framesAt s1 is with
                | ok fs => intro h; cases h
                | throws => intro h; cases h
                | ub => exact absurd hx ih
        have merge_ub : ∀ fs acc, merge O (O.toLidar body) cloud.stamp fs acc ≠ .ub := by
          intro fs
          induction fs with
          | nil => intro acc h; cases h
          | cons f fs ih =>
            intro acc
            unfold merge
            split
            · intro h; cases h
            · exact ih _
        have hne : extractNearby O s1 c.number (O.toLidar body) cloud.stamp ≠ .ub := by
          unfold extractNearby
          rw [hpc]
          dsimp only
          split
          · cases hx : framesAt s1 (O.knn pc (O.point (O.toLidar body)) (min c.number pc.length)) with
            | ok fs => exact merge_ub fs _
            | throws => intro h; cases h
            | ub => exact absurd hx (framesAt_ub _)
          · intro h; cases h
        cases hx : extractNearby O s1 c.number (O.toLidar body) cloud.stamp with
        | ok region => rw [hx] at hout; rw [hout.1] at hub; cases hub
        | throws => rw [hx] at hout; rw [hout.1] at hub; cases hub
        | ub => exact hne hx
    · rw [hn] at hsome; cases hsome

/-! ## C33: past frames -/

/-- **C33.** With past frames, a map update whose path contains the stamp of the cloud has undefined behaviour exactly if the
path names a frame of the map, or if no frame of the map is as old as the cloud. -/
theorem C33_undefined_iff (h0 : create method number voxelLocal voxelGlobal = .ok (c, s0)) (hr : Reach O c s0 h s)
    (hm : c.method = .past) {cloud : Cloud X} {path : List (Int × P)} (hp : ∃ b, (cloud.stamp, b) ∈ path) :
    (handle O c (.update cloud path) s).1 = .ub ↔
      (∃ e ∈ path, e.1 ≠ cloud.stamp ∧ (OMap.find s.map e.1).isSome) ∨
      (∀ t, (OMap.find (handle O c (.update cloud path) s).2.map t).isSome → cloud.stamp < t) := by
  obtain ⟨hi0, _, _, hp0, _⟩ := inv_init O h0
  obtain ⟨hi, hpm⟩ := reach_inv O hr hi0
  have hnone : s.poseCloud = none := by
    cases hx : s.poseCloud with
    | none => rfl
    | some _ =>
      rw [hx] at hpm
      have := hp0.1 hpm.symm
      rw [hm] at this
      cases this
  change (mapUpdate O c cloud path s).1 = .ub ↔ _ ∨ (∀ t, (OMap.find (mapUpdate O c cloud path s).2.map t).isSome → _)
  obtain ⟨b, hb⟩ := hp
  have hl : ∃ body, lastFor path cloud.stamp = some body := by
    cases hx : lastFor path cloud.stamp with
    | none => exact absurd rfl (lastFor_eq_none.1 hx _ hb)
    | some body => exact ⟨body, rfl⟩
  obtain ⟨body, hl⟩ := hl
  rcases mapUpdate_spec O (c := c) (cloud := cloud) (path := path) hi with
    ⟨r, s1, _, sp, h1, _, _, _, _, _, hout⟩ | ⟨hub, hn, e, he, hne, hs⟩
  · rw [hl, hm] at hout
    dsimp only at hout
    rw [h1]
    have hfirst : ¬ ∃ e ∈ path, e.1 ≠ cloud.stamp ∧ (OMap.find s.map e.1).isSome := by
      rintro ⟨e, he, hne, hs⟩
      rw [sp.past hnone e he hne] at hs
      cases hs
    obtain ⟨hx1, hx2⟩ := extractPast_spec O sp.inv (n := c.number) (pose := O.toLidar body) (stamp := cloud.stamp)
    constructor
    · intro hub
      right
      intro t ht
      by_contra hlt
      obtain ⟨fs, _, hfs⟩ := hx2 ⟨t, ht, not_lt.1 hlt⟩
      rw [hfs] at hout
      rw [hout.1] at hub
      cases hub
    · rintro (hh | hh)
      · exact absurd hh hfirst
      · rw [hx1 hh] at hout
        exact hout
  · exact ⟨fun _ => .inl ⟨e, he, hne, hs⟩, fun _ => hub⟩

/-- **C33 (partial).** With past frames, if a map update whose path contains the stamp of the cloud is not undefined, the
local map is made of the latest frames not later than the cloud, latest first (all of them if there are fewer than
configured). Missing: the undefined cases of `C33_undefined_iff`, which the code does not exclude. -/
theorem C33_past_frames_partial (h0 : create method number voxelLocal voxelGlobal = .ok (c, s0)) (hr : Reach O c s0 h s)
    (hm : c.method = .past) {cloud : Cloud X} {path : List (Int × P)} {body : P}
    (hl : lastFor path cloud.stamp = some body) (hu : (handle O c (.update cloud path) s).1 ≠ .ub) :
    ∃ fs region,
      LatestMembers ((handle O c (.update cloud path) s).2.map.map (·.2)) (·.stamp) cloud.stamp c.number fs ∧
      region = fs.flatMap (fun f => f.cloud.points.map (O.move (O.toLidar body) f.pose)) ∧
      (handle O c (.update cloud path) s).1 = .ok () ∧
      (handle O c (.update cloud path) s).2.locals =
        s.locals ++ [⟨cloud.stamp, O.lidarFrame, if voxelLocal then O.voxel region else region⟩] := by
  obtain ⟨hi0, _, _, _, _, hvl, _⟩ := inv_init O h0
  obtain ⟨hi, hpm⟩ := reach_inv O hr hi0
  have hmem : ∃ b, (cloud.stamp, b) ∈ path := by
    by_contra hn
    rw [lastFor_eq_none.2 (fun e he h => hn ⟨e.2, by rw [← h]; exact he⟩)] at hl
    cases hl
  have hub := (not_congr (C33_undefined_iff h0 hr hm hmem)).1 hu
  rw [not_or] at hub
  obtain ⟨_, hub⟩ := hub
  change ∃ fs region, LatestMembers ((mapUpdate O c cloud path s).2.map.map (·.2)) _ _ _ fs ∧ region = _ ∧
    (mapUpdate O c cloud path s).1 = _ ∧ (mapUpdate O c cloud path s).2.locals = _
  change ¬ ∀ t, (OMap.find (mapUpdate O c cloud path s).2.map t).isSome → _ at hub
  rcases mapUpdate_spec O (c := c) (cloud := cloud) (path := path) hi with
    ⟨r, s1, _, sp, h1, _, _, _, _, _, hout⟩ | ⟨hub, _⟩
  swap
  · exact absurd hub hu
  rw [h1] at hub ⊢
  rw [hl, hm] at hout
  dsimp only at hout
  have hex : ∃ t, (OMap.find s1.map t).isSome ∧ t ≤ cloud.stamp := by
    by_contra hn
    exact hub (fun t ht => by
      by_contra hlt
      exact hn ⟨t, ht, not_lt.1 hlt⟩)
  obtain ⟨fs, hfs, hx⟩ := (extractPast_spec O sp.inv (n := c.number) (pose := O.toLidar body) (stamp := cloud.stamp)).2 hex
  rw [hx] at hout
  refine ⟨fs, _, hfs, rfl, hout.1, ?_⟩
  rw [hout.2, hvl]
  cases voxelLocal <;> rfl

/-! ## C34: nearby frames -/

/-- **C34 (partial).** With nearby frames and clouds with different stamps, the local map is made of the configured number of
map frames nearest to the pose of the cloud (all frames if there are fewer), nearest first, each at its pose in the map; if
one of them is later than the cloud, the callback throws and nothing is published. Assumed: the search tree of PCL answers
correctly. Missing: clouds with a repeated stamp, see `C34_fails_repeated_stamp`. -/
theorem C34_nearby_frames_partial {D : Type} [LE D] {dist : V → V → D}
    (hknn : ∀ l q k, k ≤ l.length → IsKnn (dist q) l k (O.knn l q k))
    (h0 : create method number voxelLocal voxelGlobal = .ok (c, s0)) (hr : Reach O c s0 h s)
    (hm : c.method = .nearby) {cloud : Cloud X} {path : List (Int × P)} {body : P}
    (hf : Fresh (h ++ [.update cloud path])) (hl : lastFor path cloud.stamp = some body) :
    ∃ fs region,
      NearestMembers ((handle O c (.update cloud path) s).2.map.map (·.2))
        (fun f => dist (O.point (O.toLidar body)) (O.point f.pose)) c.number fs ∧
      region = fs.flatMap (fun f => f.cloud.points.map (O.move (O.toLidar body) f.pose)) ∧
      ((∀ f ∈ fs, f.stamp ≤ cloud.stamp) →
        (handle O c (.update cloud path) s).1 = .ok () ∧
        (handle O c (.update cloud path) s).2.locals =
          s.locals ++ [⟨cloud.stamp, O.lidarFrame, if voxelLocal then O.voxel region else region⟩]) ∧
      ((∃ f ∈ fs, f.stamp > cloud.stamp) →
        (handle O c (.update cloud path) s).1 = .throws ∧ (handle O c (.update cloud path) s).2.locals = s.locals) := by
  obtain ⟨hi0, _, _, hp0, _, hvl, _⟩ := inv_init O h0
  obtain ⟨hi, hpm⟩ := reach_inv O hr hi0
  have hu := C35_nearby_never_undefined h0 hr hm (.update cloud path)
  have hsi := reach_single h0 hr hf.init
  change ∃ fs region, NearestMembers ((mapUpdate O c cloud path s).2.map.map (·.2)) _ _ fs ∧ region = _ ∧
    (_ → (mapUpdate O c cloud path s).1 = _ ∧ (mapUpdate O c cloud path s).2.locals = _) ∧
    (_ → (mapUpdate O c cloud path s).1 = _ ∧ (mapUpdate O c cloud path s).2.locals = _)
  rcases mapUpdate_spec O (c := c) (cloud := cloud) (path := path) hi with
    ⟨r, s1, _, sp, h1, _, _, _, _, _, hout⟩ | ⟨hub, _⟩
  swap
  · exact absurd hub hu
  have hsi1 := sp.single (reach_new h0 hr hf.last) (hf.once cloud path (by simp)) hsi
  have hmode : s1.poseCloud.isSome := by rw [sp.mode, hpm]; exact hp0.2 hm
  obtain ⟨pc, hpc⟩ := Option.isSome_iff_exists.1 hmode
  obtain ⟨fs, hn, ha, hb⟩ := extractNearby_spec O sp.inv hsi1 hpc (n := c.number) (pose := O.toLidar body)
    (stamp := cloud.stamp) (hknn pc _ _ (min_le_right _ _))
  rw [hl, hm] at hout
  dsimp only at hout
  rw [h1]
  refine ⟨fs, _, hn, rfl, ?_, ?_⟩
  · intro hle
    rw [ha hle] at hout
    refine ⟨hout.1, ?_⟩
    rw [hout.2, hvl]
    cases voxelLocal <;> rfl
  · intro hgt
    rw [hb hgt] at hout
    exact hout

/-- **C34.** If clouds arrive in the order of their stamps, a local map is published for every cloud whose path contains its
stamp. -/
theorem C34_in_order_publishes {D : Type} [LE D] {dist : V → V → D}
    (hknn : ∀ l q k, k ≤ l.length → IsKnn (dist q) l k (O.knn l q k))
    (h0 : create method number voxelLocal voxelGlobal = .ok (c, s0)) (hr : Reach O c s0 h s)
    (hm : c.method = .nearby) {cloud : Cloud X} {path : List (Int × P)} {body : P}
    (hf : Fresh (h ++ [.update cloud path])) (hl : lastFor path cloud.stamp = some body)
    (horder : ∀ cl ∈ cloudsOf h, cl.stamp ≤ cloud.stamp) :
    (handle O c (.update cloud path) s).1 = .ok () ∧
      (handle O c (.update cloud path) s).2.locals.length = s.locals.length + 1 := by
  have hu := C35_nearby_never_undefined h0 hr hm (.update cloud path)
  obtain ⟨fs, region, hn, _, ha, _⟩ := C34_nearby_frames_partial hknn h0 hr hm hf hl
  have hr' : Reach O c s0 (h ++ [.update cloud path]) (handle O c (.update cloud path) s).2 := .step _ hr hu
  have := ha (by
    intro f hfm
    obtain ⟨e, he, rfl⟩ := List.mem_map.1 (hn.member f hfm)
    have hi := (reach_inv O hr' (inv_init O h0).1).1
    have hfind := OMap.find_of_mem hi.sorted he
    obtain ⟨hc1, hc2⟩ := reach_cloud h0 hr' _ _ hfind
    rw [(hi.stamp _ _ hfind).1, ← hc2]
    rw [cloudsOf_append] at hc1
    rcases List.mem_append.1 hc1 with hc1 | hc1
    · exact horder _ hc1
    · have : e.2.cloud = cloud := by simpa [cloudsOf] using hc1
      rw [this])
  exact ⟨this.1, by rw [this.2]; simp⟩

/-! ## C83: global map and pose graph -/

/-- **C83 (partial).** The published global map consists of the clouds of all map frames, in the order of their stamps, each
moved to the map frame by its pose; it is filtered if filtering of the *local* map is enabled. Missing: the parameter
`voxel_grid_filter/enabled_global` has no effect, see `C83_fails_global_flag`. -/
theorem C83_global_map_partial (h0 : create method number voxelLocal voxelGlobal = .ok (c, s0)) (hr : Reach O c s0 h s)
    (now : Int) (hne : s.map ≠ []) (hnow : ∀ t, (OMap.find s.map t).isSome → t ≤ now) :
    ∃ (frames : List (Frame P X)) (points : List X), frames.Pairwise (fun f g => f.stamp < g.stamp) ∧
      (∀ f, f ∈ frames ↔ OMap.find s.map f.stamp = some f) ∧
      points = frames.flatMap (fun f => f.cloud.points.map (O.moveMap f.pose)) ∧
      (handle O c (.globalMap now) s).2.globals =
        s.globals ++ [⟨now, O.mapFrame, if voxelLocal then O.voxel points else points⟩] := by
  obtain ⟨hi0, _, _, _, _, hvl, _⟩ := inv_init O h0
  obtain ⟨hi, _⟩ := reach_inv O hr hi0
  have hst : ∀ e ∈ s.map, e.2.stamp = e.1 ∧ e.2.cloud.stamp = e.1 := fun e he =>
    hi.stamp _ _ (OMap.find_of_mem hi.sorted he)
  refine ⟨s.map.map (·.2), _, ?_, ?_, rfl, ?_⟩
  · rw [List.pairwise_map]
    refine List.Pairwise.imp_of_mem ?_ hi.sorted
    intro a b ha hb hab
    rw [(hst a ha).1, (hst b hb).1]
    exact hab
  · intro f
    constructor
    · intro hf
      obtain ⟨e, he, rfl⟩ := List.mem_map.1 hf
      rw [(hst e he).1]
      exact OMap.find_of_mem hi.sorted he
    · intro hf
      exact List.mem_map.2 ⟨_, OMap.mem_of_find hf, rfl⟩
  · have fold : ∀ (l : OMap Int (Frame P X)) (acc : Cloud X), (∀ e ∈ l, e.2.cloud.stamp ≤ acc.stamp) →
        l.foldl (fun (acc : Cloud X) e =>
          acc.append { e.2.cloud with points := e.2.cloud.points.map (O.moveMap e.2.pose) }) acc =
        { acc with points := acc.points ++
          (l.map (·.2)).flatMap (fun f => f.cloud.points.map (O.moveMap f.pose)) } := by
      intro l
      induction l with
      | nil => intro acc _; simp
      | cons e l ih =>
        intro acc hle
        have he := hle e List.mem_cons_self
        rw [List.foldl_cons]
        have hstamp : (acc.append { e.2.cloud with points := e.2.cloud.points.map (O.moveMap e.2.pose) }).stamp =
            acc.stamp := by
          simp only [Cloud.append]
          exact max_eq_left he
        rw [ih _ (by intro e' he'; rw [hstamp]; exact hle e' (List.mem_cons_of_mem _ he'))]
        simp only [hstamp]
        simp [Cloud.append]
    have : (handle O c (.globalMap now) s).2.globals = s.globals ++ [if c.voxelLocal then
        { s.map.foldl (fun (acc : Cloud X) e =>
          acc.append { e.2.cloud with points := e.2.cloud.points.map (O.moveMap e.2.pose) })
          ({ stamp := now, frame := O.mapFrame, points := [] } : Cloud X) with
          points := O.voxel (s.map.foldl (fun (acc : Cloud X) e =>
          acc.append { e.2.cloud with points := e.2.cloud.points.map (O.moveMap e.2.pose) })
          ({ stamp := now, frame := O.mapFrame, points := [] } : Cloud X)).points } else
          s.map.foldl (fun (acc : Cloud X) e =>
          acc.append { e.2.cloud with points := e.2.cloud.points.map (O.moveMap e.2.pose) })
          ({ stamp := now, frame := O.mapFrame, points := [] } : Cloud X)] := by
      simp only [handle, publishMap, M.modify_run, if_neg hne]
    rw [this, fold]
    · rw [hvl]
      cases voxelLocal <;> simp
    · intro e he
      rw [(hst e he).2]
      exact hnow _ (OMap.find_isSome_iff.2 ⟨_, he⟩)

/-- **C83.** The published pose graph has one cloud and one pose per map frame, in the order of the stamps: the `i`-th pose is
the pose in the map of the frame the `i`-th cloud belongs to, with the same stamp. -/
theorem C83_pose_graph (h0 : create method number voxelLocal voxelGlobal = .ok (c, s0)) (hr : Reach O c s0 h s) :
    ∃ g, (handle O c .poseGraph s).2.graphs = s.graphs ++ [g] ∧
      g.clouds.length = s.map.length ∧ g.poses.length = s.map.length ∧
      g.clouds.Pairwise (fun a b => a.stamp < b.stamp) ∧
      (∀ (i : Nat) cl p, g.clouds[i]? = some cl → g.poses[i]? = some p →
        p.1 = cl.stamp ∧ p.2.1 = O.lidarFrame ∧ OMap.find s.map p.1 = some ⟨p.2.2, p.1, cl⟩) ∧
      (∀ t f, OMap.find s.map t = some f → f.cloud ∈ g.clouds) := by
  obtain ⟨hi, _⟩ := reach_inv O hr (inv_init O h0).1
  have hst : ∀ e ∈ s.map, e.2.stamp = e.1 ∧ e.2.cloud.stamp = e.1 := fun e he =>
    hi.stamp _ _ (OMap.find_of_mem hi.sorted he)
  refine ⟨_, rfl, by simp, by simp, ?_, ?_, ?_⟩
  · rw [List.pairwise_map]
    refine List.Pairwise.imp_of_mem ?_ hi.sorted
    intro a b ha hb hab
    rw [(hst a ha).2, (hst b hb).2]
    exact hab
  · intro i cl p hcl hp
    dsimp only at hcl hp
    rw [List.getElem?_map] at hcl hp
    cases hx : s.map[i]? with
    | none => rw [hx] at hcl; cases hcl
    | some e =>
      rw [hx] at hcl hp
      cases hcl; cases hp
      have he := List.mem_of_getElem? hx
      refine ⟨(hst e he).1.trans (hst e he).2.symm, rfl, ?_⟩
      show OMap.find s.map e.2.stamp = some e.2
      rw [(hst e he).1, OMap.find_of_mem hi.sorted he]
  · intro t f hf
    exact List.mem_map.2 ⟨(t, f), OMap.mem_of_find hf, rfl⟩

end Serpent
