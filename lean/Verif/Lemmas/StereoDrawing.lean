import Verif.Spec.StereoDrawing
import Verif.Lemmas.StereoHistory

/-!
# Lemmas about the images that the stereo tracker draws
-/

namespace Serpent

namespace Stereo

open EigenRos (forLoop getAt getAt_ok)

variable {I K : Type} [Field K] [LinearOrder K]

omit [LinearOrder K] [Field K] in
theorem Canvas.draw_legal {c : Canvas I K} (hc : c.Sound) {d : Drawing I K} (h : d.Legal) : c.draw d = .ok d := by
  unfold Canvas.draw
  rw [hc d h, Outcome.bind_ok]

omit [LinearOrder K] [Field K] in
/-- Matches that are made of a list of pairs: the drawing is legal and shows these pairs. -/
theorem shown_map {α : Type} (first second : I) (kps1 kps2 : List (KeyPoint K)) (q : List α) (mk : α → DMatch K)
    (l r : α → KeyPoint K) (hl : ∀ x ∈ q, At kps1 (mk x).queryIdx (l x)) (hr : ∀ x ∈ q, At kps2 (mk x).trainIdx (r x)) :
    (Drawing.pairs (some first) kps1 second kps2 (q.map mk)).Legal ∧
    (Drawing.pairs (some first) kps1 second kps2 (q.map mk)).shown = q.map fun x => (l x, r x) := by
  constructor
  · refine ⟨rfl, ?_⟩
    intro m hm
    obtain ⟨x, hx, rfl⟩ := List.mem_map.1 hm
    have h1 := hl x hx
    have h2 := hr x hx
    exact ⟨h1.1, (List.getElem?_eq_some_iff.1 h1.2).1, h2.1, (List.getElem?_eq_some_iff.1 h2.2).1⟩
  · unfold Drawing.shown
    dsimp only
    rw [List.filterMap_map]
    induction q with
    | nil => rfl
    | cons x q ih =>
      rw [List.filterMap_cons_some (b := (l x, r x)), ih (fun y hy => hl y (by simp [hy])) (fun y hy => hr y (by simp [hy]))]
      · rfl
      · have h1 := (hl x (by simp)).2
        have h2 := (hr x (by simp)).2
        simp only [Function.comp_apply, h1, h2]

omit [LinearOrder K] [Field K] in
theorem shown_ofObs (left right : I) (os : List (Observation K)) :
    (Drawing.pairs (some left) (ofObs os).left right (ofObs os).right (ofObs os).pairs).Legal ∧
    (Drawing.pairs (some left) (ofObs os).left right (ofObs os).right (ofObs os).pairs).shown =
      os.map fun o => (o.left, o.right) := by
  have h := shown_map left right (ofObs os).left (ofObs os).right os.zipIdx mkMatch (fun x => x.1.left) (fun x => x.1.right)
    (fun x hx => (mem_zipIdx_at hx).1) (fun x hx => (mem_zipIdx_at hx).2)
  refine ⟨h.1, h.2.trans ?_⟩
  have := filter_zipIdx_map os (fun _ => true) (fun o => (o.left, o.right))
  simpa using this

omit [LinearOrder K] [Field K] in
theorem shown_ofPairs (left right : I) (ps : List (Pair K)) :
    (Drawing.pairs (some left) (ofPairs ps).left right (ofPairs ps).right (ofPairs ps).pairs).Legal ∧
    (Drawing.pairs (some left) (ofPairs ps).left right (ofPairs ps).right (ofPairs ps).pairs).shown =
      ps.map fun o => (o.left, o.right) := by
  have hat : ∀ x ∈ ps.zipIdx, At (ofPairs ps).left ((x.2 : Nat) : Int) x.1.left ∧
      At (ofPairs ps).right ((x.2 : Nat) : Int) x.1.right := by
    intro x hx
    rw [List.mem_zipIdx_iff_getElem?] at hx
    refine ⟨⟨by simp, ?_⟩, ⟨by simp, ?_⟩⟩ <;> simp [ofPairs, hx]
  have h := shown_map left right (ofPairs ps).left (ofPairs ps).right ps.zipIdx
    (fun x => (⟨x.2, x.2, x.1.cost⟩ : DMatch K)) (fun x => x.1.left) (fun x => x.1.right)
    (fun x hx => (hat x hx).1) (fun x hx => (hat x hx).2)
  refine ⟨h.1, h.2.trans ?_⟩
  have := filter_zipIdx_map ps (fun _ => true) (fun o => (o.left, o.right))
  simpa using this

/-! ### The flow -/

omit [LinearOrder K] in
theorem flowMatches_spec (kps : List (KeyPoint K)) (flow : List (Nat × K × K)) (h : flow.length = kps.length) :
    flowMatches kps flow = .ok ((kps.zip flow).map (fun p => p.1.movedTo p.2.2),
      ((kps.zip flow).zipIdx.filter (fun x => x.1.2.1 = 1)).map (fun x => (⟨x.2, x.2, 0⟩ : DMatch K))) := by
  unfold flowMatches
  have hn : flow.length = (kps.zip flow).length := by simp [h]
  rw [hn]
  refine forLoop_take (kps.zip flow) (fun l => (l.map (fun p => p.1.movedTo p.2.2),
      (l.zipIdx.filter (fun x => x.1.2.1 = 1)).map (fun x => (⟨x.2, x.2, 0⟩ : DMatch K)))) ?_
  intro i x hx
  have hlt := (List.getElem?_eq_some_iff.1 hx).1
  rw [List.length_zip] at hlt
  have hx' : x = (kps[i]'(by omega), flow[i]'(by omega)) := by
    rw [List.getElem?_eq_some_iff] at hx
    obtain ⟨_, e⟩ := hx
    rw [← e]
    simp
  have e1 : flow[i]? = some x.2 := by rw [hx']; simp
  have e2 : kps[i]? = some x.1 := by rw [hx']; simp
  have hlen : ((kps.zip flow).take i).length = i := by simp; omega
  rw [getAt_ok e1, Outcome.bind_ok, getAt_ok e2, Outcome.bind_ok, List.zipIdx_append, List.filter_append, hlen]
  congr 1
  ext1
  · simp [KeyPoint.movedTo]
  · dsimp only
    by_cases hs : x.2.1 = 1
    · rw [if_pos hs]; simp [hs]
    · rw [if_neg hs]; simp [hs]

omit [LinearOrder K] in
/-- The drawing of the flow of one image. -/
theorem sofDrawing_spec {c : Canvas I K} (hc : c.Sound) {v : Vision I K} (hv : v.Sound) (previous current : I)
    (kps : List (KeyPoint K)) {flow : List (Nat × K × K)} (h : flowOf v (some previous) current kps = .ok flow) :
    ∃ d, sofDrawing c v (some previous) current kps = .ok d ∧ d.of = (some previous, some current) ∧
      d.shown = found kps flow := by
  have hlen := flowOf_length hv h
  have key := shown_map previous current kps ((kps.zip flow).map (fun p => p.1.movedTo p.2.2))
    ((kps.zip flow).zipIdx.filter (fun x => x.1.2.1 = 1)) (fun x => (⟨x.2, x.2, 0⟩ : DMatch K)) (fun x => x.1.1)
    (fun x => x.1.1.movedTo x.1.2.2)
    (by
      intro x hx
      have hx := List.mem_of_mem_filter hx
      rw [List.mem_zipIdx_iff_getElem?] at hx
      refine ⟨by simp, ?_⟩
      have := List.getElem?_zip_eq_some.1 hx
      simpa using this.1)
    (by
      intro x hx
      have hx := List.mem_of_mem_filter hx
      rw [List.mem_zipIdx_iff_getElem?] at hx
      refine ⟨by simp, ?_⟩
      simp only [Int.toNat_natCast, List.getElem?_map, hx, Option.map_some])
  refine ⟨.pairs (some previous) kps current ((kps.zip flow).map (fun p => p.1.movedTo p.2.2))
    (((kps.zip flow).zipIdx.filter (fun x => x.1.2.1 = 1)).map (fun x => (⟨x.2, x.2, 0⟩ : DMatch K))), ?_, rfl, ?_⟩
  · unfold sofDrawing
    rw [h, Outcome.bind_ok, flowMatches_spec kps flow hlen, Outcome.bind_ok]
    exact Canvas.draw_legal hc key.1
  · rw [key.2]
    have := filter_zipIdx_map (kps.zip flow) (fun p => decide (p.2.1 = 1)) (fun p => (p.1, p.1.movedTo p.2.2))
    refine this.trans ?_
    unfold found
    generalize kps.zip flow = z
    induction z with
    | nil => rfl
    | cons p z ih =>
      by_cases hp : p.2.1 = 1
      · simp [hp, ih]
      · simp [hp, ih]

/-! ### Filtering -/

/-- The matches that are left after filtering. -/
theorem filterTracked_pairs (cfg : TrackerConfig K) (hs : List (Observation K)) (s : Tracker I K) :
    (filterTracked cfg (ofObs hs) s).2.track.pairs =
      (hs.zipIdx.filter (fun x => admitted cfg.vertical s.distanceFilter x.1)).map mkMatch := by
  have hg := geometryFilter_spec cfg.vertical (ofObs hs).left (ofObs hs).right hs.zipIdx mkMatch (fun x => x.1.left)
    (fun x => x.1.right) (fun x hx => (mem_zipIdx_at hx).1) (fun x hx => (mem_zipIdx_at hx).2)
  have hids := extractIds_filter hs.zipIdx (fun x => x.1.id) (fun x => geometryB cfg.vertical x.1.left x.1.right)
  have hids' : (ofObs hs).ids = hs.zipIdx.map (fun x => x.1.id) := by
    show hs.map (·.id) = _
    have := filter_zipIdx_map hs (fun _ => true) (·.id)
    simpa using this.symm
  rw [← hids'] at hids
  have hpairs : (ofObs hs).pairs = hs.zipIdx.map mkMatch := rfl
  rw [← hpairs] at hg
  unfold filterTracked
  rw [hg, M.lift_ok_bind, M.modify_bind, hids, M.lift_ok_bind, M.modify_bind, M.get_bind]
  cases hd : s.distanceFilter with
  | none =>
    simp only
    show List.map mkMatch _ = _
    congr 2
    funext x
    simp [admitted]
  | some d =>
    simp only
    have hf := depthFilter_spec d (ofObs hs).left (ofObs hs).right
      (hs.zipIdx.filter (fun x => geometryB cfg.vertical x.1.left x.1.right)) mkMatch (fun x => x.1.left)
      (fun x => x.1.right) (fun x hx => (mem_zipIdx_at (List.mem_of_mem_filter hx)).1)
      (fun x hx => (mem_zipIdx_at (List.mem_of_mem_filter hx)).2)
    have hfi := extractIds_filter (hs.zipIdx.filter (fun x => geometryB cfg.vertical x.1.left x.1.right)) (fun x => x.1.id)
      (fun x => depthB d x.1.left x.1.right)
    rw [hf, M.lift_ok_bind, M.modify_bind]
    simp only
    rw [hfi, M.lift_ok_bind, M.modify_run, List.filter_filter]
    show List.map mkMatch _ = _
    congr 2
    funext x
    simp only [admitted]
    rw [Bool.and_comm]

/-! ### One frame -/

/-- What the images of a frame show. `previous`: the images of the tracker before; `os`: its features; `hs`: those found again;
`ps`: new ones. -/
structure Drawn (v : Vision I K) (cfg : TrackerConfig K) (s : Tracker I K) (os : List (Observation K)) (left right : I)
    (hs : List (Observation K)) (ps : List (Pair K)) (im : Images I K) : Prop where
  extracted : ∃ newL newR, v.detect left = .ok newL ∧ v.detect right = .ok newR ∧
    im.extracted = (.keypoints left newL, .keypoints right newR)
  sof : (s.frameNumber + 1 > 0 ∧ ∃ i fl fr dl dr, s.images = some i ∧
      flowOf v (some i.1) left (os.map (·.left)) = .ok fl ∧ flowOf v (some i.2) right (os.map (·.right)) = .ok fr ∧
      im.sofMatches = some (dl, dr) ∧ dl.of = (some i.1, some left) ∧ dr.of = (some i.2, some right) ∧
      dl.shown = found (os.map (·.left)) fl ∧ dr.shown = found (os.map (·.right)) fr) ∨
    (¬ s.frameNumber + 1 > 0 ∧ im.sofMatches = none)
  filtered : im.stereoFiltered.of = (some left, some right) ∧ im.stereoFiltered.shown =
    (hs.filter (admitted cfg.vertical s.distanceFilter)).map fun o => (o.left, o.right)
  tracked : im.tracked.of = (some left, some right) ∧ im.tracked.shown =
    (hs.filter (admitted cfg.vertical s.distanceFilter)).map fun o => (o.left, o.right)
  new : im.new.of = (some left, some right) ∧ im.new.shown = ps.map fun o => (o.left, o.right)

/-- The drawings of the flow, if the previous images are there. -/
theorem sofDrawings_spec {c : Canvas I K} (hc : c.Sound) {v : Vision I K} (hv : v.Sound) {cfg : TrackerConfig K}
    (s : Tracker I K) (os : List (Observation K)) (ht : s.track = ofObs os) (himg : s.frameNumber + 1 > 0 → s.images.isSome)
    (left right : I) {newL newR kl kr : List (KeyPoint K)} {hs : List (Observation K)}
    (hm : Moved v cfg s os left right newL newR hs kl kr) :
    ∃ sof, sofDrawings c v { s with frameNumber := s.frameNumber + 1 } left right = .ok sof ∧
      ((s.frameNumber + 1 > 0 ∧ ∃ i fl fr dl dr, s.images = some i ∧
        flowOf v (some i.1) left (os.map (·.left)) = .ok fl ∧ flowOf v (some i.2) right (os.map (·.right)) = .ok fr ∧
        sof = some (dl, dr) ∧ dl.of = (some i.1, some left) ∧ dr.of = (some i.2, some right) ∧
        dl.shown = found (os.map (·.left)) fl ∧ dr.shown = found (os.map (·.right)) fr) ∨
      (¬ s.frameNumber + 1 > 0 ∧ sof = none)) := by
  unfold sofDrawings
  rcases hm with ⟨hf, fl, fr, h1, h2, -⟩ | ⟨hf, -⟩
  · obtain ⟨i, hi⟩ := Option.isSome_iff_exists.1 (himg hf)
    rw [hi, Option.map_some] at h1 h2
    have e1 : s.track.left = os.map (·.left) := by rw [ht]; rfl
    have e2 : s.track.right = os.map (·.right) := by rw [ht]; rfl
    obtain ⟨dl, hl1, hl2, hl3⟩ := sofDrawing_spec hc hv i.1 left (os.map (·.left)) h1
    obtain ⟨dr, hr1, hr2, hr3⟩ := sofDrawing_spec hc hv i.2 right (os.map (·.right)) h2
    refine ⟨some (dl, dr), ?_, Or.inl ⟨hf, i, fl, fr, dl, dr, hi, h1, h2, rfl, hl2, hr2, hl3, hr3⟩⟩
    dsimp only
    rw [if_pos hf, hi, e1, e2]
    dsimp only [Option.map_some]
    rw [hl1, Outcome.bind_ok, hr1, Outcome.bind_ok]
  · refine ⟨none, ?_, Or.inr ⟨hf, rfl⟩⟩
    dsimp only
    rw [if_neg hf]

/-- Drawing does not change what a frame gives, if the images of a frame that is not the first are kept. -/
theorem processDrawn_spec {c : Canvas I K} (hc : c.Sound) {v : Vision I K} (hv : v.Sound) (cfg : TrackerConfig K)
    (s : Tracker I K) (os : List (Observation K)) (ht : s.track = ofObs os)
    (himg : s.frameNumber + 1 > 0 → s.images.isSome) (left right : I) :
    (∃ s', process v cfg left right s = (.throws, s') ∧ processDrawn c v cfg left right s = (.throws, s')) ∨
    ∃ hs ps t st s' im, process v cfg left right s = (.ok (t, st), s') ∧
      processDrawn c v cfg left right s = (.ok ((t, st), im), s') ∧
      Processed v cfg s os left right hs ps t st s' ∧ Drawn v cfg s os left right hs ps im := by
  unfold process processDrawn
  by_cases hsz : v.size left ≠ v.size right
  · rw [if_pos hsz, if_pos hsz]; exact Or.inl ⟨_, rfl, rfl⟩
  rw [if_neg hsz, if_neg hsz]
  rw [M.modify_bind, M.modify_bind]
  cases hdl : v.detect left with
  | ub => exact absurd hdl (hv.detect _)
  | throws => rw [M.lift_throws_bind, M.lift_throws_bind]; exact Or.inl ⟨_, rfl, rfl⟩
  | ok newL =>
    rw [M.lift_ok_bind, M.lift_ok_bind, Canvas.draw_legal hc (d := .keypoints left newL) trivial, M.lift_ok_bind]
    cases hdr : v.detect right with
    | ub => exact absurd hdr (hv.detect _)
    | throws => rw [M.lift_throws_bind, M.lift_throws_bind]; exact Or.inl ⟨_, rfl, rfl⟩
    | ok newR =>
      rw [M.lift_ok_bind, M.get_bind, M.lift_ok_bind, Canvas.draw_legal hc (d := .keypoints right newR) trivial,
        M.lift_ok_bind, M.get_bind]
      rcases hypotheses_spec hv cfg s os ht left right newL newR with h | ⟨hs, kl, kr, hm, h⟩
      · rw [h, M.lift_throws_bind, M.lift_throws_bind]; exact Or.inl ⟨_, rfl, rfl⟩
      obtain ⟨sof, hsof, hsof'⟩ := sofDrawings_spec hc hv s os ht himg left right hm
      rw [h, M.lift_ok_bind, M.lift_ok_bind, hsof, M.lift_ok_bind]
      obtain ⟨mid, hfilt, hlen, hids, hkeep⟩ := filterTracked_keep cfg hs { s with frameNumber := s.frameNumber + 1 }
      have hpairs := filterTracked_pairs cfg hs { s with frameNumber := s.frameNumber + 1 }
      rw [hfilt] at hpairs
      dsimp only at hfilt hlen hids hkeep hpairs ⊢
      rw [M.bind_run, hfilt, M.bind_run (filterTracked cfg (ofObs hs)), hfilt]
      dsimp only
      have hd1 := shown_map left right (ofObs hs).left (ofObs hs).right
        (hs.zipIdx.filter (fun x => admitted cfg.vertical s.distanceFilter x.1)) mkMatch (fun x => x.1.left)
        (fun x => x.1.right) (fun x hx => (mem_zipIdx_at (List.mem_of_mem_filter hx)).1)
        (fun x hx => (mem_zipIdx_at (List.mem_of_mem_filter hx)).2)
      rw [← hpairs] at hd1
      rw [M.get_bind, M.bind_run, hkeep, M.get_bind, Canvas.draw_legal hc hd1.1, M.lift_ok_bind,
        M.bind_run (keepTracked (ofObs hs)), hkeep]
      dsimp only
      have hd2 := shown_ofObs left right (hs.filter (admitted cfg.vertical s.distanceFilter))
      rw [M.get_bind]
      dsimp only
      rw [Canvas.draw_legal hc hd2.1, M.lift_ok_bind]
      rcases newMatches_spec hv cfg s.distanceFilter kl kr left right with h2 | ⟨idx, costs, hi, h2⟩
      · rw [h2, M.lift_throws_bind, M.lift_throws_bind]
        exact Or.inl ⟨_, rfl, rfl⟩
      rw [h2, M.lift_ok_bind, M.modify_bind, M.get_bind, M.lift_ok_bind, M.modify_bind]
      dsimp only
      generalize hps : (candidates cfg.costThreshold kl kr idx costs).filter (within s.distanceFilter) = ps
      have hpl : (ofPairs ps).pairs.length = ps.length := by simp [ofPairs]
      have hpi : (ofPairs ps).ids = [] := rfl
      have hd3 := shown_ofPairs left right ps
      rw [Canvas.draw_legal hc hd3.1, M.lift_ok_bind, M.get_bind]
      dsimp only
      rw [hpl, hpi, List.nil_append, appendMatches_spec, M.lift_ok_bind, M.modify_bind, M.modify_bind, M.lift_ok_bind,
        M.modify_bind, M.modify_bind]
      refine Or.inr ⟨hs, ps, _, _, _, _, rfl, rfl, ?_, ?_⟩
      · refine ⟨⟨newL, newR, kl, kr, idx, costs, hdl, hdr, hm, hi, hps.symm, rfl, rfl⟩, rfl, rfl, rfl, rfl, ?_, ?_, ?_, rfl,
          rfl, rfl⟩
        · dsimp only; rw [hids]
        · dsimp only; rw [(ofObs_lengths hs).1, (ofObs_lengths hs).2.1]
        · dsimp only; rw [hlen]
      · refine ⟨⟨newL, newR, hdl, hdr, rfl⟩, hsof', ⟨rfl, ?_⟩, ⟨rfl, hd2.2⟩, ⟨rfl, hd3.2⟩⟩
        refine hd1.2.trans ?_
        exact filter_zipIdx_map hs (admitted cfg.vertical s.distanceFilter) (fun o => (o.left, o.right))

end Stereo

end Serpent
