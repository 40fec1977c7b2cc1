import Verif.Lemmas.Mapping

/-!
# Lemmas about the extraction of local maps
-/

namespace Serpent

namespace Mapping

variable {P V X : Type} (O : Ops P V X)

theorem merge_ok {target : P} {stamp : Int} : ∀ {fs : List (Frame P X)} {acc : Cloud X},
    (∀ f ∈ fs, f.stamp ≤ stamp ∧ f.cloud.stamp = f.stamp) → acc.stamp = stamp →
    merge O target stamp fs acc =
      .ok { acc with points := acc.points ++ fs.flatMap (fun f => f.cloud.points.map (O.move target f.pose)) }
  | [], acc, _, _ => by simp [merge]
  | f :: fs, acc, h, ha => by
    have hf := h f List.mem_cons_self
    unfold merge
    rw [if_neg (by simpa using hf.1)]
    have : (acc.append (transformed O target f)).stamp = stamp := by
      simp only [Cloud.append, transformed, hf.2, ha]
      exact max_eq_left hf.1
    rw [merge_ok (fun g hg => h g (List.mem_cons_of_mem _ hg)) this]
    congr 1
    have hst : (acc.append (transformed O target f)).stamp = acc.stamp := this.trans ha.symm
    simp only [Cloud.mk.injEq, hst]
    simp [Cloud.append, transformed]

theorem merge_throws {target : P} {stamp : Int} : ∀ {fs : List (Frame P X)} {acc : Cloud X},
    (∃ f ∈ fs, f.stamp > stamp) → merge O target stamp fs acc = .throws
  | [], _, ⟨_, hf, _⟩ => by cases hf
  | f :: fs, acc, ⟨g, hg, hs⟩ => by
    unfold merge
    split
    · rfl
    · rename_i h
      rcases List.mem_cons.1 hg with rfl | hg
      · exact absurd hs h
      · exact merge_throws ⟨g, hg, hs⟩

theorem framesAt_ok {s : St P V X} (hs : Inv O s) {pc : List V} (hpc : s.poseCloud = some pc) : ∀ {is : List Nat},
    (∀ i ∈ is, i < pc.length) → ∃ fs, framesAt s is = .ok fs ∧
      List.Forall₂ (fun i f => OMap.find s.timestamps i = some f.stamp ∧ OMap.find s.map f.stamp = some f) is fs
  | [], _ => ⟨[], rfl, .nil⟩
  | i :: is, h => by
    have hi := (hs.stamped pc hpc i).2 (h i List.mem_cons_self)
    obtain ⟨t, ht⟩ := Option.isSome_iff_exists.1 hi
    obtain ⟨f, hf⟩ := Option.isSome_iff_exists.1 (hs.known pc hpc i t ht)
    obtain ⟨fs, h1, h2⟩ := framesAt_ok hs hpc (fun j hj => h j (List.mem_cons_of_mem _ hj))
    refine ⟨f :: fs, ?_, .cons ?_ h2⟩
    · unfold framesAt
      rw [ht]
      simp only [hf, h1]
      rfl
    · rw [(hs.stamp t f hf).1]
      exact ⟨ht, hf⟩

theorem keys_nodup {κ ν : Type} [LinearOrder κ] {m : OMap κ ν} (h : OMap.Sorted m) : (m.map (·.1)).Nodup := by
  rw [List.Nodup, List.pairwise_map]
  exact h.imp (fun hlt => ne_of_lt hlt)

theorem length_eq {s : St P V X} (hs : Inv O s) (h1 : Single s) {pc : List V} (hpc : s.poseCloud = some pc) :
    pc.length = s.map.length := by
  let g : Int → Nat := fun t => (OMap.find s.indices t).getD 0
  have hg : ∀ t ∈ s.map.map (·.1), OMap.find s.indices t = some (g t) := by
    intro t ht
    obtain ⟨e, he, rfl⟩ := List.mem_map.1 ht
    have := hs.indexed pc hpc e.1
    rw [OMap.find_of_mem hs.sorted he] at this
    cases h : OMap.find s.indices e.1 with
    | none => rw [h] at this; cases this
    | some i => simp [g, h]
  have hnd : ((s.map.map (·.1)).map g).Nodup := by
    refine List.Nodup.map_on ?_ (keys_nodup hs.sorted)
    intro t ht u hu e
    have a := hs.back pc hpc _ _ (hg t ht)
    have b := hs.back pc hpc _ _ (hg u hu)
    rw [e, b] at a
    exact (Option.some.inj a).symm
  have hp : ((s.map.map (·.1)).map g).Perm (List.range pc.length) := by
    rw [List.perm_ext_iff_of_nodup hnd List.nodup_range]
    intro i
    rw [List.mem_range, ← hs.stamped pc hpc i]
    constructor
    · intro h
      obtain ⟨t, ht, rfl⟩ := List.mem_map.1 h
      rw [hs.back pc hpc _ _ (hg t ht)]
      rfl
    · intro h
      obtain ⟨t, ht⟩ := Option.isSome_iff_exists.1 h
      have hi := h1 pc hpc i t ht
      have hk := hs.known pc hpc i t ht
      obtain ⟨v, hv⟩ := OMap.find_isSome_iff.1 hk
      refine List.mem_map.2 ⟨t, List.mem_map.2 ⟨_, hv, rfl⟩, ?_⟩
      simp [g, hi]
  have := hp.length_eq
  simpa using this.symm

/-- The answer of the nearest neighbour search, in terms of the frames of the map. -/
theorem nearest_frames {D : Type} [LE D] {d : V → D} {s : St P V X} (hs : Inv O s) (h1 : Single s)
    {pc : List V} (hpc : s.poseCloud = some pc) {n : Nat} {found : List Nat} (hk : IsKnn d pc (min n pc.length) found)
    {fs : List (Frame P X)}
    (hf : List.Forall₂ (fun i f => OMap.find s.timestamps i = some f.stamp ∧ OMap.find s.map f.stamp = some f) found fs) :
    NearestMembers (s.map.map (·.2)) (fun f => d (O.point f.pose)) n fs := by
  have hidx : ∀ f, OMap.find s.map f.stamp = some f → ∀ i, OMap.find s.timestamps i = some f.stamp →
      pc[i]? = some (O.point f.pose) := fun f hm i ht => hs.point pc hpc _ _ _ (h1 pc hpc i _ ht) hm
  have hmem : ∀ f ∈ fs, ∃ i ∈ found, OMap.find s.timestamps i = some f.stamp ∧ OMap.find s.map f.stamp = some f := by
    clear hk
    induction hf with
    | nil => intro f h; cases h
    | cons h _ ih =>
      intro f hmem
      rcases List.mem_cons.1 hmem with rfl | hmem
      · exact ⟨_, List.mem_cons_self, h⟩
      · obtain ⟨i, hi, h⟩ := ih f hmem
        exact ⟨i, List.mem_cons_of_mem _ hi, h⟩
  refine ⟨?_, ?_, ?_, ?_, ?_⟩
  · rw [← hf.length_eq, hk.length, length_eq O hs h1 hpc, List.length_map]
  · have e : fs.map (fun f => OMap.find s.indices f.stamp) = found.map some := by
      clear hk hmem
      induction hf with
      | nil => rfl
      | cons h _ ih => rw [List.map_cons, List.map_cons, ih, h1 pc hpc _ _ h.1]
    have : (fs.map (fun f => OMap.find s.indices f.stamp)).Nodup := by
      rw [e]
      exact hk.nodup.map (Option.some_injective _)
    exact this.of_map _
  · intro f hfm
    obtain ⟨i, _, _, h⟩ := hmem f hfm
    exact List.mem_map.2 ⟨(f.stamp, f), OMap.mem_of_find h, rfl⟩
  · have hsort := hk.sorted
    clear hk hmem
    induction hf with
    | nil => exact List.Pairwise.nil
    | @cons i f is fs h hrest ih =>
      rw [List.pairwise_cons] at hsort ⊢
      refine ⟨?_, ih hsort.2⟩
      intro g hg
      have : ∃ j ∈ is, OMap.find s.timestamps j = some g.stamp ∧ OMap.find s.map g.stamp = some g := by
        clear ih hsort
        induction hrest with
        | nil => cases hg
        | cons h _ ih =>
          rcases List.mem_cons.1 hg with rfl | hg
          · exact ⟨_, List.mem_cons_self, h⟩
          · obtain ⟨i, hi, h⟩ := ih hg
            exact ⟨i, List.mem_cons_of_mem _ hi, h⟩
      obtain ⟨j, hj, hj1, hj2⟩ := this
      exact hsort.1 j hj _ _ (hidx f h.2 i h.1) (hidx g hj2 j hj1)
  · intro f hfm g hgm hng
    obtain ⟨i, hi, hi1, hi2⟩ := hmem f hfm
    obtain ⟨e, he, rfl⟩ := List.mem_map.1 hgm
    have hfind := OMap.find_of_mem hs.sorted he
    have hst := (hs.stamp _ _ hfind).1
    have hin : (OMap.find s.indices e.1).isSome := by rw [hs.indexed pc hpc, hfind]; rfl
    obtain ⟨j, hj⟩ := Option.isSome_iff_exists.1 hin
    have hjt := hs.back pc hpc _ _ hj
    have hjp := hs.point pc hpc _ _ _ hj hfind
    refine hk.nearest i hi j ?_ _ _ (hidx f hi2 i hi1) hjp
    intro hjf
    apply hng
    clear hk hmem hfm hi hng
    induction hf with
    | nil => cases hjf
    | @cons i' f' is' fs' h _ ih =>
      rcases List.mem_cons.1 hjf with rfl | hjf
      · have : f' = e.2 := by
          rw [hjt] at h
          have h2 := h.2
          rw [← Option.some.inj h.1, hfind] at h2
          exact (Option.some.inj h2).symm
        rw [← this]
        exact List.mem_cons_self
      · exact List.mem_cons_of_mem _ (ih hjf)

theorem extractNearby_spec {D : Type} [LE D] {d : V → V → D} {s : St P V X} (hs : Inv O s) (h1 : Single s)
    {pc : List V} (hpc : s.poseCloud = some pc) {n : Nat} {pose : P} {stamp : Int}
    (hk : IsKnn (d (O.point pose)) pc (min n pc.length) (O.knn pc (O.point pose) (min n pc.length))) :
    ∃ fs, NearestMembers (s.map.map (·.2)) (fun f => d (O.point pose) (O.point f.pose)) n fs ∧
      ((∀ f ∈ fs, f.stamp ≤ stamp) → extractNearby O s n pose stamp = .ok ⟨stamp, O.lidarFrame,
        fs.flatMap (fun f => f.cloud.points.map (O.move pose f.pose))⟩) ∧
      ((∃ f ∈ fs, f.stamp > stamp) → extractNearby O s n pose stamp = .throws) := by
  obtain ⟨fs, hfs, hf⟩ := framesAt_ok O hs hpc hk.valid
  have hn := nearest_frames O hs h1 hpc hk hf
  have hcl : ∀ f ∈ fs, f.cloud.stamp = f.stamp := by
    intro f hfm
    obtain ⟨e, he, rfl⟩ := List.mem_map.1 (hn.member f hfm)
    have := hs.stamp _ _ (OMap.find_of_mem hs.sorted he)
    rw [this.1, this.2]
  refine ⟨fs, hn, ?_, ?_⟩
  · intro hle
    unfold extractNearby
    rw [hpc]
    simp only [hk.length, if_true, hfs, Outcome.bind_ok]
    rw [merge_ok O (fun f hf => ⟨hle f hf, hcl f hf⟩) rfl]
    simp
  · intro hgt
    unfold extractNearby
    rw [hpc]
    simp only [hk.length, if_true, hfs, Outcome.bind_ok]
    exact merge_throws O hgt

theorem dropWhile_sorted {α : Type} {time : α → Int} {t : Int} : ∀ {l : List α}, l.Pairwise (fun a b => time b < time a) →
    l.dropWhile (fun e => time e > t) = l.filter (fun e => time e ≤ t)
  | [], _ => rfl
  | a :: l, h => by
    rw [List.pairwise_cons] at h
    by_cases ha : time a > t
    · rw [List.dropWhile_cons_of_pos (by simpa using ha), List.filter_cons_of_neg (by simpa using ha), dropWhile_sorted h.2]
    · rw [List.dropWhile_cons_of_neg (by simpa using ha), List.filter_cons_of_pos (by simpa using ha)]
      congr 1
      symm
      rw [List.filter_eq_self]
      intro b hb
      have := h.1 b hb
      simp only [decide_eq_true_eq]
      omega

/-- The frames of the past, without reading outside the map. -/
theorem extractPast_spec {s : St P V X} (hs : Inv O s) {n : Nat} {pose : P} {stamp : Int} :
    ((∀ t, (OMap.find s.map t).isSome → stamp < t) → extractPast O s n pose stamp = .ub) ∧
    ((∃ t, (OMap.find s.map t).isSome ∧ t ≤ stamp) → ∃ fs, LatestMembers (s.map.map (·.2)) (·.stamp) stamp n fs ∧
      extractPast O s n pose stamp = .ok ⟨stamp, O.lidarFrame,
        fs.flatMap (fun f => f.cloud.points.map (O.move pose f.pose))⟩) := by
  have hrev : s.map.reverse.Pairwise (fun a b => b.1 < a.1) := by rw [List.pairwise_reverse]; exact hs.sorted
  have hdrop := dropWhile_sorted (time := fun e : Int × Frame P X => e.1) (t := stamp) hrev
  constructor
  · intro h
    have hnil : s.map.reverse.filter (fun e => e.1 ≤ stamp) = [] := by
      rw [List.filter_eq_nil_iff]
      intro e he
      have := h e.1 (OMap.find_isSome_iff.2 ⟨e.2, List.mem_reverse.1 he⟩)
      simp only [decide_eq_true_eq]
      omega
    unfold extractPast
    rw [hdrop, hnil]
  · rintro ⟨t, ht, hle⟩
    obtain ⟨v, hv⟩ := OMap.find_isSome_iff.1 ht
    have hst : ∀ e ∈ s.map, e.2.stamp = e.1 ∧ e.2.cloud.stamp = e.1 := fun e he =>
      hs.stamp _ _ (OMap.find_of_mem hs.sorted he)
    let l := s.map.reverse.filter (fun e => e.1 ≤ stamp)
    have hl : ∀ e ∈ l, e ∈ s.map ∧ e.1 ≤ stamp := by
      intro e he
      have := List.mem_filter.1 he
      exact ⟨List.mem_reverse.1 this.1, by simpa using this.2⟩
    have hlp : l.Pairwise (fun a b => b.1 < a.1) := hrev.filter _
    refine ⟨(l.take n).map (·.2), ⟨?_, ?_, ?_, ?_⟩, ?_⟩
    · rw [List.length_map, List.length_take]
      congr 1
      have : (s.map.map (·.2)).filter (fun m => m.stamp ≤ stamp) = (s.map.filter (fun e => e.1 ≤ stamp)).map (·.2) := by
        rw [List.filter_map]
        congr 1
        apply List.filter_congr
        intro e he
        simp [(hst e he).1]
      rw [this, List.length_map]
      simp only [l, List.filter_reverse, List.length_reverse]
    · intro u hu
      obtain ⟨e, he, rfl⟩ := List.mem_map.1 hu
      have := hl e (List.mem_of_mem_take he)
      refine ⟨List.mem_map.2 ⟨e, this.1, rfl⟩, ?_⟩
      show e.2.stamp ≤ stamp
      rw [(hst e this.1).1]
      exact this.2
    · rw [List.pairwise_map]
      have hp : (l.take n).Pairwise (fun a b => b.1 < a.1) := hlp.sublist (List.take_sublist n l)
      refine hp.imp_of_mem ?_
      intro a b ha hb hab
      rw [(hst a (hl a (List.mem_of_mem_take ha)).1).1, (hst b (hl b (List.mem_of_mem_take hb)).1).1]
      exact hab
    · intro u hu v hv hvt hvn
      obtain ⟨e, he, rfl⟩ := List.mem_map.1 hu
      obtain ⟨e', he', rfl⟩ := List.mem_map.1 hv
      change e'.2.stamp ≤ stamp at hvt
      show e'.2.stamp < e.2.stamp
      rw [(hst e' he').1] at hvt ⊢
      rw [(hst e (hl e (List.mem_of_mem_take he)).1).1]
      have hin : e' ∈ l := List.mem_filter.2 ⟨List.mem_reverse.2 he', by simpa using hvt⟩
      rw [← List.take_append_drop n l] at hin hlp
      rcases List.mem_append.1 hin with h | h
      · exact absurd (List.mem_map.2 ⟨e', h, rfl⟩) hvn
      · exact (List.pairwise_append.1 hlp).2.2 e he e' h
    · have hne : l ≠ [] := by
        intro h
        have : (t, v) ∈ l := List.mem_filter.2 ⟨List.mem_reverse.2 hv, by simpa using hle⟩
        rw [h] at this
        cases this
      unfold extractPast
      rw [hdrop]
      change (match l with
        | [] => Outcome.ub
        | l => merge O pose stamp ((List.take n l).map (fun e : Int × Frame P X => e.2)) { stamp := stamp, frame := O.lidarFrame, points := [] }) = _
      cases hll : l with
      | nil => exact absurd hll hne
      | cons a b =>
        dsimp only
        have h3 : ∀ f ∈ (l.take n).map (·.2), f.stamp ≤ stamp ∧ f.cloud.stamp = f.stamp := by
          intro f hf
          obtain ⟨e, he, rfl⟩ := List.mem_map.1 hf
          have h1 := hl e (List.mem_of_mem_take he)
          have h2 := hst e h1.1
          rw [h2.1, h2.2]
          exact ⟨h1.2, rfl⟩
        rw [← hll, merge_ok O h3 rfl]
        simp

theorem framesAt_members {s : St P V X} (hs : Inv O s) : ∀ {is : List Nat} {fs : List (Frame P X)},
    framesAt s is = .ok fs → ∀ f ∈ fs, f ∈ s.map.map (·.2)
  | [], fs, h => by cases h; intro f hf; cases hf
  | i :: is, fs, h => by
    unfold framesAt at h
    cases ht : OMap.find s.timestamps i with
    | none => rw [ht] at h; cases h
    | some t =>
      rw [ht] at h
      dsimp only at h
      cases hf : OMap.find s.map t with
      | none => rw [hf] at h; cases h
      | some g =>
        rw [hf] at h
        dsimp only at h
        cases hr : framesAt s is with
        | throws => rw [hr] at h; cases h
        | ub => rw [hr] at h; cases h
        | ok gs =>
          rw [hr] at h
          cases h
          intro f hfm
          rcases List.mem_cons.1 hfm with rfl | hfm
          · exact List.mem_map.2 ⟨(t, f), OMap.mem_of_find hf, rfl⟩
          · exact framesAt_members hs hr f hfm

/-- What a local map is made of, whatever the search returned. -/
theorem extractNearby_members {s : St P V X} (hs : Inv O s) {n : Nat} {pose : P} {stamp : Int} {region : Cloud X}
    (h : extractNearby O s n pose stamp = .ok region) :
    ∃ fs : List (Frame P X), (∀ f ∈ fs, f ∈ s.map.map (·.2) ∧ f.stamp ≤ stamp) ∧ region = ⟨stamp, O.lidarFrame,
        fs.flatMap (fun f => f.cloud.points.map (O.move pose f.pose))⟩ := by
  unfold extractNearby at h
  cases hpc : s.poseCloud with
  | none => rw [hpc] at h; cases h
  | some pc =>
    rw [hpc] at h
    dsimp only at h
    split at h
    swap
    · cases h
    cases hr : framesAt s (O.knn pc (O.point pose) (min n pc.length)) with
    | throws => rw [hr] at h; cases h
    | ub => rw [hr] at h; cases h
    | ok fs =>
      rw [hr, Outcome.bind_ok] at h
      have hm := framesAt_members O hs hr
      by_cases hex : ∃ f ∈ fs, f.stamp > stamp
      · rw [merge_throws O hex] at h
        cases h
      · have hle : ∀ f ∈ fs, f.stamp ≤ stamp := by
          intro f hf
          by_contra hlt
          exact hex ⟨f, hf, not_le.1 hlt⟩
        have h3 : ∀ f ∈ fs, f.stamp ≤ stamp ∧ f.cloud.stamp = f.stamp := by
          intro f hf
          obtain ⟨e, he, rfl⟩ := List.mem_map.1 (hm f hf)
          have := hs.stamp _ _ (OMap.find_of_mem hs.sorted he)
          exact ⟨hle _ hf, by rw [this.1, this.2]⟩
        rw [merge_ok O h3 rfl] at h
        cases h
        exact ⟨fs, fun f hf => ⟨hm f hf, hle f hf⟩, by simp⟩

/-! ## Callbacks -/

theorem mapUpdate_spec {c : Cfg} {cloud : Cloud X} {path : List (Int × P)} {s : St P V X} (hs : Inv O s) :
    (∃ r s1, pathLoop O cloud path none s = (.ok r, s1) ∧ LoopSpec O cloud path none s r s1 ∧
      (mapUpdate O c cloud path s).2.map = s1.map ∧ (mapUpdate O c cloud path s).2.poseCloud = s1.poseCloud ∧
      (mapUpdate O c cloud path s).2.indices = s1.indices ∧ (mapUpdate O c cloud path s).2.timestamps = s1.timestamps ∧
      (mapUpdate O c cloud path s).2.globals = s.globals ∧ (mapUpdate O c cloud path s).2.graphs = s.graphs ∧
      (match lastFor path cloud.stamp with
        | none => (mapUpdate O c cloud path s).1 = .throws ∧ (mapUpdate O c cloud path s).2.locals = s.locals
        | some body =>
          match (match c.method with
              | .nearby => extractNearby O s1 c.number (O.toLidar body) cloud.stamp
              | .past => extractPast O s1 c.number (O.toLidar body) cloud.stamp) with
          | .ok region => (mapUpdate O c cloud path s).1 = .ok () ∧ (mapUpdate O c cloud path s).2.locals =
              s.locals ++ [if c.voxelLocal then { region with points := O.voxel region.points } else region]
          | .throws => (mapUpdate O c cloud path s).1 = .throws ∧ (mapUpdate O c cloud path s).2.locals = s.locals
          | .ub => (mapUpdate O c cloud path s).1 = .ub)) ∨
    ((mapUpdate O c cloud path s).1 = .ub ∧ s.poseCloud = none ∧
      ∃ e ∈ path, e.1 ≠ cloud.stamp ∧ (OMap.find s.map e.1).isSome) := by
  by_cases hp : path = []
  · left
    have e : mapUpdate O c cloud path s = (.throws, s) := by unfold mapUpdate; rw [if_pos hp]; rfl
    subst hp
    rcases pathLoop_spec O cloud [] none hs with ⟨r, s1, h1, sp⟩ | ⟨hu, _⟩
    swap
    · cases hu
    refine ⟨r, s1, h1, sp, ?_⟩
    cases h1
    rw [e]
    refine ⟨rfl, rfl, rfl, rfl, rfl, rfl, ?_⟩
    rw [lastFor_nil]
    exact ⟨rfl, rfl⟩
  rcases pathLoop_spec O cloud path none hs with ⟨r, s1, h1, sp⟩ | ⟨hu, hn, hsome⟩
  · left
    refine ⟨r, s1, h1, sp, ?_⟩
    have hr := sp.found
    rw [Option.or_none] at hr
    cases hl : lastFor path cloud.stamp with
    | none =>
      rw [hl] at hr
      cases hr
      have e : mapUpdate O c cloud path s = (.throws, s1) := by
        unfold mapUpdate
        rw [if_neg hp, M.bind_run, h1]
        rfl
      rw [e]
      exact ⟨rfl, rfl, rfl, rfl, sp.quiet.2.1, sp.quiet.2.2, rfl, sp.quiet.1⟩
    | some body =>
      rw [hl] at hr
      cases hr
      dsimp only
      generalize hx : (match c.method with
          | .nearby => extractNearby O s1 c.number (O.toLidar body) cloud.stamp
          | .past => extractPast O s1 c.number (O.toLidar body) cloud.stamp) = x
      have e : mapUpdate O c cloud path s = (M.lift x >>= fun region => M.modify fun s =>
          { s with locals := s.locals ++
            [if c.voxelLocal then { region with points := O.voxel region.points } else region] }) s1 := by
        unfold mapUpdate
        rw [if_neg hp, M.bind_run, h1]
        simp only [Option.map_some]
        rw [M.get_bind, ← hx]
        rfl
      rw [e]
      cases x with
      | ok region => exact ⟨rfl, rfl, rfl, rfl, sp.quiet.2.1, sp.quiet.2.2, rfl, by rw [← sp.quiet.1]; rfl⟩
      | throws => exact ⟨rfl, rfl, rfl, rfl, sp.quiet.2.1, sp.quiet.2.2, rfl, sp.quiet.1⟩
      | ub => exact ⟨rfl, rfl, rfl, rfl, sp.quiet.2.1, sp.quiet.2.2, rfl⟩
  · right
    refine ⟨?_, hn, hsome⟩
    unfold mapUpdate
    rw [if_neg hp, M.bind_run]
    rcases hx : pathLoop O cloud path none s with ⟨o, s1⟩
    rw [hx] at hu
    dsimp only at hu
    subst hu
    rfl

theorem Inv.congr {s s' : St P V X} (h : Inv O s) (h1 : s'.map = s.map) (h2 : s'.poseCloud = s.poseCloud)
    (h3 : s'.indices = s.indices) (h4 : s'.timestamps = s.timestamps) : Inv O s' := by
  obtain ⟨a, b, c, d, e, f, g, i, j⟩ := h
  exact ⟨h1 ▸ a, h1 ▸ b, h3 ▸ c, h4 ▸ d, by rw [h1, h2, h3]; exact e, by rw [h1, h2, h3]; exact f, by rw [h2, h4]; exact g,
    by rw [h1, h2, h4]; exact i, by rw [h2, h3, h4]; exact j⟩

theorem Single.congr {s s' : St P V X} (h : Single s) (h2 : s'.poseCloud = s.poseCloud)
    (h3 : s'.indices = s.indices) (h4 : s'.timestamps = s.timestamps) : Single s' := by
  unfold Single
  rw [h2, h3, h4]
  exact h

theorem inv_init {s0 : St P V X} {c : Cfg} {m : String} {n : Int} {a b : Bool} (h : create m n a b = .ok (c, s0)) :
    Inv O s0 ∧ Single s0 ∧ s0.map = [] ∧ (s0.poseCloud.isSome ↔ c.method = .nearby) ∧ 1 ≤ c.number ∧
      c.voxelLocal = a ∧ c.voxelGlobal = b ∧ s0.locals = [] ∧ s0.globals = [] ∧ s0.graphs = [] := by
  unfold create at h
  split at h
  · cases h
  · rename_i hn
    cases hm : toMethod m with
    | throws => rw [hm] at h; cases h
    | ub => rw [hm] at h; cases h
    | ok k =>
      rw [hm, Outcome.bind_ok] at h
      cases h
      refine ⟨⟨OMap.sorted_nil, ?_, OMap.sorted_nil, OMap.sorted_nil, ?_, ?_, ?_, ?_, ?_⟩, ?_, rfl, ?_, ?_, rfl, rfl, rfl, rfl,
        rfl⟩
      · intro t f h; cases h
      · intro pc _ t; rfl
      · intro pc _ t i f h; cases h
      · intro pc h i
        cases k
        · cases h; simp
        · cases h
      · intro pc _ i t h; cases h
      · intro pc _ t i h; cases h
      · intro pc _ i t h; cases h
      · cases k <;> simp
      · show 1 ≤ n.toNat
        omega

theorem handle_inv {c : Cfg} {s : St P V X} (hs : Inv O s) (e : Event P X) (hu : (handle O c e s).1 ≠ .ub) :
    Inv O (handle O c e s).2 ∧ (handle O c e s).2.poseCloud.isSome = s.poseCloud.isSome := by
  cases e with
  | update cloud path =>
    rcases mapUpdate_spec O (c := c) (cloud := cloud) (path := path) hs with ⟨r, s1, _, sp, h1, h2, h3, h4, _⟩ | ⟨h, _⟩
    · exact ⟨sp.inv.congr O h1 h2 h3 h4, by show (mapUpdate O c cloud path s).2.poseCloud.isSome = _; rw [h2]; exact sp.mode⟩
    · exact absurd h hu
  | poseGraph => exact ⟨hs.congr O rfl rfl rfl rfl, rfl⟩
  | globalMap now => exact ⟨hs.congr O rfl rfl rfl rfl, rfl⟩

theorem reach_inv {c : Cfg} {s0 s : St P V X} {h : List (Event P X)} (hr : Reach O c s0 h s) (h0 : Inv O s0) :
    Inv O s ∧ s.poseCloud.isSome = s0.poseCloud.isSome := by
  induction hr with
  | init => exact ⟨h0, rfl⟩
  | step e _ hu ih =>
    obtain ⟨a, b⟩ := handle_inv O ih.1 e hu
    exact ⟨a, b.trans ih.2⟩

end Mapping

end Serpent
