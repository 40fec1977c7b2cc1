import Verif.Lemmas.Wiring
import Verif.Props.ParametersAgree
import Mathlib.Tactic.Tauto

/-!
# Lemmas for C131: the topics of the components of a system that starts
-/

namespace Serpent

namespace Wiring

open Params

variable {cv : OpenCv} {frames : String → Bool} {p : Server} {s : Single} {a : Topics}

/-! ### Topics of the components, relative to the namespace -/

theorem resolve_inputs (a : Topics) : resolve (inputRemaps a) "input/imu" = a.imu ∧
    resolve (inputRemaps a) "input/pointcloud" = a.pointcloud ∧
    resolve (inputRemaps a) "input/stereo/left/image" = a.leftImage ∧
    resolve (inputRemaps a) "input/stereo/right/image" = a.rightImage ∧
    resolve (inputRemaps a) "input/stereo/left/camera_info" = a.leftInfo ∧
    resolve (inputRemaps a) "input/stereo/right/camera_info" = a.rightInfo ∧
    resolve (inputRemaps a) "input/barometer" = a.barometer := by
  simp [resolve, inputRemaps, List.lookup]

/-- Everything a system advertises. -/
def advertised (s : Single) (l : List Component) : List Port :=
  (frontendComponent s.frontend).advertises ++ ((backendComponent s.backend).advertises ++ (formatterComponent.advertises ++
    (l.flatMap Component.advertises ++ ((lidarBackComponents (s.lidar.map Prod.snd)).flatMap Component.advertises ++
      (stereoComponents s.stereo).flatMap Component.advertises))))

theorem links_of {l : List Component} {f : LidarFront} (hl : lidarFrontComponents p (some f) = .ok l) :
    ∃ v b r o s u, l = (linksOf v b r o s u).map (linkComponent f.unit) := by
  unfold lidarFrontComponents at hl
  obtain ⟨links, h, hl⟩ := bind_eq_ok hl
  injection hl with hl
  obtain ⟨u, -, e⟩ := lidarNode_eq h
  exact ⟨_, _, _, _, _, u, by rw [← hl, e]⟩

theorem advertised_sublist (h : single cv frames p = .ok s) {l : List Component}
    (hl : lidarFrontComponents p (s.lidar.map Prod.fst) = .ok l) : ∃ u, (advertised s l).Sublist (allMax u) := by
  have hst : ((stereoComponents s.stereo).flatMap Component.advertises).Sublist stereoMax := by
    cases s.stereo with
    | none => exact List.nil_sublist _
    | some t => simpa [stereoComponents] using stereo_sublist t
  have hx : ∃ u, (l.flatMap Component.advertises).Sublist (lidarMax u) ∧
      ((lidarBackComponents (s.lidar.map Prod.snd)).flatMap Component.advertises).Sublist (regMax u) := by
    cases hs : s.lidar with
    | none =>
      rw [hs] at hl
      injection hl with hl
      rw [← hl]
      exact ⟨false, List.nil_sublist _, List.nil_sublist _⟩
    | some fb =>
      obtain ⟨f, b⟩ := fb
      have hu := (C128_unit_vectors h hs).1
      rw [hs] at hl
      obtain ⟨_, _, _, _, _, _, e⟩ := links_of hl
      refine ⟨f.unit, ?_, ?_⟩
      · rw [e, List.flatMap_map]
        exact (links_table _ _ _ _ _ _ _).1
      · rw [hu]
        simpa [lidarBackComponents] using reg_sublist b.registration
  obtain ⟨u, h1, h2⟩ := hx
  exact ⟨u, (frontend_sublist _).append ((backend_sublist _).append ((List.Sublist.refl _).append (h1.append (h2.append hst))))⟩

/-- The subscriptions of the single process, one component after the other. -/
def subscribed (s : Single) (l : List Component) : List Port :=
  (frontendComponent s.frontend).subscribes ++ ((backendComponent s.backend).subscribes ++ (formatterComponent.subscribes ++
    (l.flatMap Component.subscribes ++ ((lidarBackComponents (s.lidar.map Prod.snd)).flatMap Component.subscribes ++
      (stereoComponents s.stereo).flatMap Component.subscribes))))

theorem served (h : single cv frames p = .ok s) {l : List Component}
    (hl : lidarFrontComponents p (s.lidar.map Prod.fst) = .ok l) (a : Topics) :
    ∀ t ∈ subscribed s l, (resolve (inputRemaps a) t.1, t.2) ∈ sensors a ∨ t ∈ advertised s l := by
  obtain ⟨e1, e2, e3, e4⟩ := C128_enabled h
  obtain ⟨r1, r2, r3, r4, r5, r6, r7⟩ := resolve_inputs a
  have hF : ∀ t ∈ (frontendComponent s.frontend).advertises, t ∈ advertised s l := fun t ht => by
    simp only [advertised, List.mem_append]; exact .inl ht
  have hB : ∀ t ∈ (backendComponent s.backend).advertises, t ∈ advertised s l := fun t ht => by
    simp only [advertised, List.mem_append]; exact .inr (.inl ht)
  have hM : ∀ t ∈ formatterComponent.advertises, t ∈ advertised s l := fun t ht => by
    simp only [advertised, List.mem_append]; exact .inr (.inr (.inl ht))
  have hL : ∀ t ∈ l.flatMap Component.advertises, t ∈ advertised s l := fun t ht => by
    simp only [advertised, List.mem_append]; exact .inr (.inr (.inr (.inl ht)))
  have hR : ∀ t ∈ (lidarBackComponents (s.lidar.map Prod.snd)).flatMap Component.advertises, t ∈ advertised s l := fun t ht => by
    simp only [advertised, List.mem_append]; exact .inr (.inr (.inr (.inr (.inl ht))))
  have hS : ∀ t ∈ (stereoComponents s.stereo).flatMap Component.advertises, t ∈ advertised s l := fun t ht => by
    simp only [advertised, List.mem_append]; exact .inr (.inr (.inr (.inr (.inr ht))))
  intro t ht
  simp only [subscribed, List.mem_append] at ht
  rcases ht with ht | ht | ht | ht | ht | ht
  · simp only [frontendComponent, List.mem_append, List.mem_cons, List.not_mem_nil, or_false, mem_onlyIf] at ht
    rcases ht with ((rfl | rfl | rfl | rfl) | ⟨-, rfl | rfl | rfl | rfl⟩) | ⟨-, rfl⟩
    · exact .inl (by simp [r1, sensors])
    · exact .inr (hB _ (by simp [backendComponent]))
    · exact .inr (hB _ (by simp [backendComponent]))
    · exact .inr (hM _ (by simp [formatterComponent]))
    · exact .inl (by simp [r3, sensors])
    · exact .inl (by simp [r4, sensors])
    · exact .inl (by simp [r5, sensors])
    · exact .inl (by simp [r6, sensors])
    · exact .inl (by simp [r7, sensors])
  · simp only [backendComponent, List.mem_append, List.mem_cons, List.not_mem_nil, or_false, mem_onlyIf] at ht
    rcases ht with (((rfl | rfl) | ⟨hr, rfl⟩) | ⟨hs, rfl⟩) | ⟨hb, rfl⟩
    · exact .inr (hF _ (by simp [frontendComponent]))
    · exact .inr (hF _ (by simp [frontendComponent]))
    · refine .inr (hR _ ?_)
      rw [e4, Option.isSome_iff_exists] at hr
      obtain ⟨fb, hr⟩ := hr
      simp [hr, lidarBackComponents, registrationComponent]
    · refine .inr (hS _ ?_)
      rw [← e2, e1, Option.isSome_iff_exists] at hs
      obtain ⟨t, hs⟩ := hs
      simp [hs, stereoComponents, stereoComponent]
    · refine .inr (hF _ ?_)
      rw [← e3] at hb
      simp [frontendComponent, mem_onlyIf, hb]
  · simp only [formatterComponent, List.mem_cons, List.not_mem_nil, or_false] at ht
    subst ht
    exact .inl (by simp [r2, sensors])
  · cases hs : s.lidar with
    | none =>
      rw [hs] at hl
      injection hl with hl
      rw [← hl] at ht
      cases ht
    | some fb =>
      rw [hs] at hl
      obtain ⟨v, b, r, o, w, u, e⟩ := links_of hl
      rw [e, List.flatMap_map] at ht
      obtain ⟨k, hk, ht⟩ := List.mem_flatMap.1 ht
      simp only [linkComponent, List.mem_cons, List.not_mem_nil, or_false] at ht
      subst ht
      rcases (links_table v b r o w u fb.1.unit).2.1 k hk with hi | hi
      · refine .inr (hF _ ?_)
        rw [hi]
        simp [frontendComponent]
      · refine .inr (hL _ ?_)
        rw [e, List.flatMap_map]
        exact hi
  · cases hs : s.lidar with
    | none => rw [hs] at ht; cases ht
    | some fb =>
      obtain ⟨f, b⟩ := fb
      have hu := (C128_unit_vectors h hs).1
      rw [hs] at hl ht hR
      obtain ⟨v, b', r, o, w, u, e⟩ := links_of hl
      have hN : ("normal_estimation/pointcloud", Msg.cloud (.normal b.registration.unit)) ∈ advertised s l := by
        refine hL _ ?_
        rw [e, List.flatMap_map, ← hu]
        exact (links_table v b' r o w u f.unit).2.2
      simp only [Option.map_some, lidarBackComponents, List.flatMap_cons, List.flatMap_nil, List.append_nil, List.mem_append,
        mappingComponent, registrationComponent, List.mem_cons, List.not_mem_nil, or_false] at ht
      rcases ht with (rfl | rfl) | rfl | rfl | rfl
      · exact .inr hN
      · exact .inr (hB _ (by simp [backendComponent]))
      · exact .inr hN
      · exact .inr (hB _ (by simp [backendComponent]))
      · exact .inr (hR _ (by simp [lidarBackComponents, mappingComponent]))
  · cases hs : s.stereo with
    | none => rw [hs] at ht; cases ht
    | some t' =>
      have hf : s.frontend.stereo = true := by rw [e1, hs]; rfl
      rw [hs] at ht
      simp only [stereoComponents, List.flatMap_cons, List.flatMap_nil, List.append_nil, stereoComponent, List.mem_cons,
        List.not_mem_nil, or_false] at ht
      rcases ht with rfl | rfl | rfl | rfl <;>
        exact .inr (hF _ (by simp [frontendComponent, mem_onlyIf, hf]))

/-! ### The nodes -/

theorem perm_parts (A B C D E F : List Port) : ((A ++ (C ++ D)) ++ (B ++ (E ++ F))).Perm (A ++ (B ++ (C ++ (D ++ (E ++ F))))) := by
  rw [List.perm_iff_count]
  intro x
  simp only [List.count_append]
  omega

theorem single_node (h : single cv frames p = .ok s) {n : Node} (hn : singleNode a p s = .ok n) : ∃ l,
    lidarFrontComponents p (s.lidar.map Prod.fst) = .ok l ∧ n.advertises = (advertised s l).map absolute ∧
    n.subscribes = (subscribed s l).map fun t => (resolve (inputRemaps a) t.1, t.2) := by
  unfold singleNode at hn
  obtain ⟨l, hl, hn⟩ := bind_eq_ok hn
  injection hn with hn
  refine ⟨l, hl, ?_, ?_⟩
  · obtain ⟨u, hsub⟩ := advertised_sublist h hl
    rw [← hn]
    have e : ([frontendComponent s.frontend, backendComponent s.backend, formatterComponent] ++ l ++
        lidarBackComponents (s.lidar.map Prod.snd) ++ stereoComponents s.stereo).flatMap Component.advertises = advertised s l := by
      simp only [advertised, List.flatMap_append, List.flatMap_cons, List.flatMap_nil, List.append_nil, List.append_assoc]
    unfold node
    dsimp only
    rw [e]
    refine List.map_congr_left fun t ht => ?_
    rw [resolve_other a (allMax_not_input u t (hsub.subset ht))]
    rfl
  · rw [← hn]
    unfold node
    simp only [subscribed, List.flatMap_append, List.flatMap_cons, List.flatMap_nil, List.append_nil, List.append_assoc]

theorem nodup_advertised (h : single cv frames p = .ok s) {l : List Component}
    (hl : lidarFrontComponents p (s.lidar.map Prod.fst) = .ok l) : ((advertised s l).map Prod.fst).Nodup := by
  obtain ⟨u, hsub⟩ := advertised_sublist h hl
  exact (hsub.map Prod.fst).nodup (nodup_allMax u)

/-- Two processes together subscribe to and advertise what the single process does. -/
theorem split_node (h : single cv frames p = .ok s) {f : FrontProcess} {b : BackProcess} (hf : frontProcess frames p = .ok f)
    (hb : backProcess cv frames p = .ok b) {n : Node} (hn : frontNode a p f = .ok n) : ∃ l,
    lidarFrontComponents p (s.lidar.map Prod.fst) = .ok l ∧
    (n.advertises ++ (backNode b).advertises).Perm ((advertised s l).map absolute) ∧
    (n.subscribes ++ (backNode b).subscribes).Perm ((subscribed s l).map fun t => (resolve (inputRemaps a) t.1, t.2)) := by
  obtain ⟨hf', hb'⟩ := C128_split_same h
  rw [hf'] at hf
  rw [hb'] at hb
  injection hf with hf
  injection hb with hb
  subst hf hb
  unfold frontNode at hn
  obtain ⟨l, hl, hn⟩ := bind_eq_ok hn
  injection hn with hn
  refine ⟨l, hl, ?_, ?_⟩
  · obtain ⟨u, hsub⟩ := advertised_sublist h hl
    have e : ∀ t ∈ advertised s l, (resolve (inputRemaps a) t.1, t.2) = absolute t := fun t ht => by
      rw [resolve_other a (allMax_not_input u t (hsub.subset ht))]
      rfl
    have h1 : n.advertises = ((frontendComponent s.frontend).advertises ++ (formatterComponent.advertises ++
        l.flatMap Component.advertises)).map absolute := by
      rw [← hn]
      unfold node
      simp only [List.flatMap_append, List.flatMap_cons, List.flatMap_nil, List.append_nil, List.append_assoc]
      refine List.map_congr_left fun t ht => e t ?_
      simp only [advertised, List.mem_append] at ht ⊢
      tauto
    have h2 : (backNode ⟨s.backend, s.lidar.map Prod.snd, s.stereo, s.threads⟩).advertises =
        ((backendComponent s.backend).advertises ++ ((lidarBackComponents (s.lidar.map Prod.snd)).flatMap Component.advertises ++
        (stereoComponents s.stereo).flatMap Component.advertises)).map absolute := by
      unfold backNode node
      simp only [List.flatMap_append, List.flatMap_cons, List.flatMap_nil, List.append_nil, List.append_assoc]
      rfl
    rw [h1, h2, ← List.map_append]
    refine List.Perm.map _ ?_
    exact perm_parts _ _ _ _ _ _
  · have e : ∀ t ∈ (backendComponent s.backend).subscribes ++
        ((lidarBackComponents (s.lidar.map Prod.snd)).flatMap Component.subscribes ++
        (stereoComponents s.stereo).flatMap Component.subscribes), t.1 ∉ inputNames := by
      intro t ht
      simp only [List.mem_append] at ht
      rcases ht with ht | ht | ht
      · simp only [backendComponent, List.mem_append, List.mem_cons, List.not_mem_nil, or_false, mem_onlyIf] at ht
        rcases ht with (((rfl | rfl) | ⟨-, rfl⟩) | ⟨-, rfl⟩) | ⟨-, rfl⟩ <;> simp [inputNames]
      · cases hs : s.lidar with
        | none => rw [hs] at ht; cases ht
        | some fb =>
          rw [hs] at ht
          simp only [Option.map_some, lidarBackComponents, List.flatMap_cons, List.flatMap_nil, List.append_nil, List.mem_append,
            mappingComponent, registrationComponent, List.mem_cons, List.not_mem_nil, or_false] at ht
          rcases ht with (rfl | rfl) | rfl | rfl | rfl <;> simp [inputNames]
      · cases hs : s.stereo with
        | none => rw [hs] at ht; cases ht
        | some t' =>
          rw [hs] at ht
          simp only [stereoComponents, List.flatMap_cons, List.flatMap_nil, List.append_nil, stereoComponent, List.mem_cons,
            List.not_mem_nil, or_false] at ht
          rcases ht with rfl | rfl | rfl | rfl <;> simp [inputNames]
    have h1 : n.subscribes = ((frontendComponent s.frontend).subscribes ++ (formatterComponent.subscribes ++
        l.flatMap Component.subscribes)).map fun t => (resolve (inputRemaps a) t.1, t.2) := by
      rw [← hn]
      unfold node
      simp only [List.flatMap_append, List.flatMap_cons, List.flatMap_nil, List.append_nil, List.append_assoc]
    have h2 : (backNode ⟨s.backend, s.lidar.map Prod.snd, s.stereo, s.threads⟩).subscribes =
        ((backendComponent s.backend).subscribes ++ ((lidarBackComponents (s.lidar.map Prod.snd)).flatMap Component.subscribes ++
        (stereoComponents s.stereo).flatMap Component.subscribes)).map fun t => (resolve (inputRemaps a) t.1, t.2) := by
      unfold backNode node
      simp only [List.flatMap_append, List.flatMap_cons, List.flatMap_nil, List.append_nil, List.append_assoc]
      refine List.map_congr_left fun t ht => ?_
      rw [resolve_other a (e t ht), resolve_nil]
    rw [h1, h2, ← List.map_append]
    refine List.Perm.map _ ?_
    exact perm_parts _ _ _ _ _ _

/-- The subscriptions with names that the launch file remaps. -/
theorem input_subscribed (h : single cv frames p = .ok s) {l : List Component}
    (hl : lidarFrontComponents p (s.lidar.map Prod.fst) = .ok l) : ∀ x ∈ subscribed s l, x.1 ∈ inputNames →
    x = ("input/imu", .imu) ∨ x = ("input/pointcloud", .cloud .any) ∨
    (s.frontend.stereo = true ∧ (x = ("input/stereo/left/image", .image) ∨ x = ("input/stereo/right/image", .image) ∨
      x = ("input/stereo/left/camera_info", .cameraInfo) ∨ x = ("input/stereo/right/camera_info", .cameraInfo))) ∨
    (s.frontend.barometer = true ∧ x = ("input/barometer", .fluidPressure)) := by
  intro x hx hi
  obtain ⟨u, hsub⟩ := advertised_sublist h hl
  have hno : x ∉ advertised s l := fun hm => allMax_not_input u x (hsub.subset hm) hi
  simp only [subscribed, List.mem_append] at hx
  rcases hx with hx | hx | hx | hx
  · simp only [frontendComponent, List.mem_append, List.mem_cons, List.not_mem_nil, or_false, mem_onlyIf] at hx
    rcases hx with ((hx | hx | hx | hx) | hx) | hx
    · exact .inl hx
    · subst hx; simp [inputNames] at hi
    · subst hx; simp [inputNames] at hi
    · subst hx; simp [inputNames] at hi
    · exact .inr (.inr (.inl hx))
    · exact .inr (.inr (.inr hx))
  · simp only [backendComponent, List.mem_append, List.mem_cons, List.not_mem_nil, or_false, mem_onlyIf] at hx
    rcases hx with (((rfl | rfl) | ⟨-, rfl⟩) | ⟨-, rfl⟩) | ⟨-, rfl⟩ <;> simp [inputNames] at hi
  · simp only [formatterComponent, List.mem_cons, List.not_mem_nil, or_false] at hx
    exact .inr (.inl hx)
  · have hx' : x ∈ subscribed s l := by
      simp only [subscribed, List.mem_append]
      exact .inr (.inr (.inr hx))
    exfalso
    rcases hx with hx | hx | hx
    · cases hs : s.lidar with
      | none =>
        rw [hs] at hl
        injection hl with hl
        rw [← hl] at hx
        cases hx
      | some fb =>
        rw [hs] at hl
        obtain ⟨v, b, r, o, w, u', e⟩ := links_of hl
        rw [e, List.flatMap_map] at hx
        obtain ⟨k, hk, hx⟩ := List.mem_flatMap.1 hx
        simp only [linkComponent, List.mem_cons, List.not_mem_nil, or_false] at hx
        subst hx
        rcases (links_table v b r o w u' fb.1.unit).2.1 k hk with hq | hq
        · rw [hq] at hi
          simp [inputNames] at hi
        · refine hno ?_
          simp only [advertised, List.mem_append]
          rw [e, List.flatMap_map]
          exact .inr (.inr (.inr (.inl hq)))
    · cases hs : s.lidar with
      | none => rw [hs] at hx; cases hx
      | some fb =>
        rw [hs] at hx
        simp only [Option.map_some, lidarBackComponents, List.flatMap_cons, List.flatMap_nil, List.append_nil, List.mem_append,
          mappingComponent, registrationComponent, List.mem_cons, List.not_mem_nil, or_false] at hx
        rcases hx with (rfl | rfl) | rfl | rfl | rfl <;> simp [inputNames] at hi
    · cases hs : s.stereo with
      | none => rw [hs] at hx; cases hx
      | some t' =>
        rw [hs] at hx
        simp only [stereoComponents, List.flatMap_cons, List.flatMap_nil, List.append_nil, stereoComponent, List.mem_cons,
          List.not_mem_nil, or_false] at hx
        rcases hx with rfl | rfl | rfl | rfl <;> simp [inputNames] at hi

theorem pipeline_advertises (a : Topics) (t : StereoTracking) :
    (pipelineNode a t).advertises = (stereoComponent t).advertises.map absolute := by
  unfold pipelineNode node
  simp only [List.flatMap_cons, List.flatMap_nil, List.append_nil]
  refine List.map_congr_left fun x hx => ?_
  have hno : "serpent/" ++ x.1 ∉ (stereoRemaps a).map Prod.fst := by
    have : ∀ x ∈ stereoMax, "serpent/" ++ x.1 ∉ ["serpent/stereo/left/image", "serpent/stereo/right/image",
      "serpent/stereo/left/camera_info", "serpent/stereo/right/camera_info"] := by decide +kernel
    exact this x ((stereo_sublist t).subset hx)
  unfold resolve
  rw [lookup_eq_none_of hno]
  rfl

/-! ### Publishers -/

theorem publishers_cons (n : Node) (ns : List Node) (t : String) : publishers (n :: ns) t = publishers [n] t ++ publishers ns t := by
  simp [publishers, List.flatMap_cons, List.filterMap_append]

theorem publishers_ne_nil {n : Node} {t : String} : publishers [n] t ≠ [] ↔ n.Publishes t := by
  unfold publishers Node.Publishes
  rw [Ne, List.filterMap_eq_nil_iff]
  simp only [List.flatMap_cons, List.flatMap_nil, List.append_nil, not_forall, List.mem_map]
  constructor
  · rintro ⟨x, hx, hne⟩
    refine ⟨x, hx, ?_⟩
    by_contra e
    exact hne (if_neg e)
  · rintro ⟨x, hx, e⟩
    exact ⟨x, hx, by simp [e]⟩

theorem publishers_single (h : single cv frames p = .ok s) {n : Node} (hn : singleNode a p s = .ok n) {x : String} {m : Msg}
    (hx : ("/serpent/" ++ x, m) ∈ n.advertises) : publishers [n] ("/serpent/" ++ x) = [m] := by
  obtain ⟨l, hl, hA, -⟩ := single_node h hn
  rw [hA] at hx
  obtain ⟨y, hy, e⟩ := List.mem_map.1 hx
  have e1 : y.1 = x := absolute_name (congrArg Prod.fst e)
  have e2 : y.2 = m := congrArg Prod.snd e
  have := publishers_one (nodes := [n]) (A := advertised s l) (by simp [hA]) (nodup_advertised h hl) hy
  rwa [e1, e2] at this

/-! ### When topics exist -/

/-- A part of the table: its entries say when a component has the topic. -/
def Part (table : List (String × Bool)) (A M : List Port) : Prop :=
  table.map Prod.fst = M.map (fun t => "/serpent/" ++ t.1) ∧ A.Sublist M ∧
  ∀ e ∈ table, e.1 ∈ A.map (fun t => "/serpent/" ++ t.1) ↔ e.2 = true

theorem part_append {t₁ t₂ : List (String × Bool)} {A₁ A₂ M₁ M₂ : List Port} (hn : ((M₁ ++ M₂).map Prod.fst).Nodup)
    (h₁ : Part t₁ A₁ M₁) (h₂ : Part t₂ A₂ M₂) : Part (t₁ ++ t₂) (A₁ ++ A₂) (M₁ ++ M₂) := by
  obtain ⟨a1, b1, c1⟩ := h₁
  obtain ⟨a2, b2, c2⟩ := h₂
  rw [List.map_append, List.nodup_append] at hn
  have hd : ∀ x y, x ∈ M₁ → y ∈ M₂ → "/serpent/" ++ x.1 ≠ "/serpent/" ++ y.1 := fun x y hx hy e =>
    hn.2.2 _ (List.mem_map_of_mem hx) _ (List.mem_map_of_mem hy) (absolute_name e)
  refine ⟨by rw [List.map_append, List.map_append, a1, a2], b1.append b2, fun e he => ?_⟩
  rw [List.map_append, List.mem_append]
  rcases List.mem_append.1 he with he | he
  · rw [← c1 e he, or_iff_left]
    intro hm
    obtain ⟨y, hy, ey⟩ := List.mem_map.1 hm
    have : e.1 ∈ t₁.map Prod.fst := List.mem_map_of_mem he
    rw [a1] at this
    obtain ⟨x, hx, ex⟩ := List.mem_map.1 this
    exact hd x y hx (b2.subset hy) (ex.trans ey.symm)
  · rw [← c2 e he, or_iff_right]
    intro hm
    obtain ⟨x, hx, ex⟩ := List.mem_map.1 hm
    have : e.1 ∈ t₂.map Prod.fst := List.mem_map_of_mem he
    rw [a2] at this
    obtain ⟨y, hy, ey⟩ := List.mem_map.1 this
    exact hd x y (b1.subset hx) hy (ex.trans ey.symm)

theorem nodup_right {A B : List Port} (h : ((A ++ B).map Prod.fst).Nodup) : (B.map Prod.fst).Nodup := by
  rw [List.map_append, List.nodup_append] at h
  exact h.2.1

theorem part_nil {table : List (String × Bool)} {M : List Port} (h : table.map Prod.fst = M.map (fun t => "/serpent/" ++ t.1))
    (hf : ∀ e ∈ table, e.2 = false) : Part table [] M :=
  ⟨h, List.nil_sublist _, fun e he => by simp [hf e he]⟩

/-- The topics of the front end. -/
def frontTable (stereo barometer : Bool) : List (String × Bool) :=
  [("/serpent/frontend/deskewed_pointcloud", true), ("/serpent/frontend/imu_s2s", true),
    ("/serpent/frontend/initial_odometry", true), ("/serpent/output/odometry", true), ("/serpent/output/pose", true),
    ("/serpent/stereo/left/image", stereo), ("/serpent/stereo/right/image", stereo), ("/serpent/stereo/left/camera_info", stereo),
    ("/serpent/stereo/right/camera_info", stereo), ("/serpent/frontend/barometer", barometer)]

/-- The topics of the front end, relative. -/
def frontPorts (stereo barometer : Bool) : List Port :=
    [("frontend/deskewed_pointcloud", .cloud .any), ("frontend/imu_s2s", .imuArray), ("frontend/initial_odometry", .odometry),
      ("output/odometry", .odometry), ("output/pose", .pose)] ++
    onlyIf stereo [("stereo/left/image", .image), ("stereo/right/image", .image), ("stereo/left/camera_info", .cameraInfo),
      ("stereo/right/camera_info", .cameraInfo)] ++
    onlyIf barometer [("frontend/barometer", .fluidPressure)]

instance {t : List (String × Bool)} {A M : List Port} : Decidable (Part t A M) := by
  unfold Part; infer_instance

theorem front_part : ∀ x y, Part (frontTable x y) (frontPorts x y) frontMax := by decide +kernel

/-- The topics of the back end. -/
def backTable (points : Bool) : List (String × Bool) :=
  [("/serpent/optimisation/imu_biases", true), ("/serpent/optimisation/imu_transform", true),
    ("/serpent/optimisation/odometry", true), ("/serpent/output/path", true), ("/serpent/optimisation/path_changes", true),
    ("/serpent/debug/stereo_points", points)]

/-- The topics of the back end, relative. -/
def backPorts (points : Bool) : List Port :=
    [("optimisation/imu_biases", .imuBiases), ("optimisation/imu_transform", .transform), ("optimisation/odometry", .odometry),
      ("output/path", .path), ("optimisation/path_changes", .path)] ++
    onlyIf points [("debug/stereo_points", .cloud .xyz)]

theorem back_part : ∀ x, Part (backTable x) (backPorts x) backMax := by decide +kernel

theorem lidar_part : ∀ v b r o s u w, Part (cloudTopics ⟨true, v, b, r, o, s, u⟩)
    ((linksOf v b r o s u).flatMap fun l => (linkComponent w l).advertises) (lidarMax w) := by decide +kernel

theorem lidar_part_none (c : CloudOptions) (h : c.registration = false) : Part (cloudTopics c) [] (lidarMax false) := by
  refine part_nil ?_ ?_
  · show ["/serpent/filter/voxel_filtered_pointcloud", "/serpent/filter/body_filtered_pointcloud",
      "/serpent/filter/range_filtered_pointcloud", "/serpent/filter/sor_filtered_pointcloud", "/serpent/filter/filtered_pointcloud",
      "/serpent/add_unit_vectors/pointcloud", "/serpent/normal_estimation/pointcloud"] = _
    decide +kernel
  · simp [cloudTopics, h]

/-- The topics of mapping and registration. -/
def regTable (registration clouds alt : Bool) : List (String × Bool) :=
  [("/serpent/mapping/local_map", registration), ("/serpent/output/global_map", registration),
    ("/serpent/output/pose_graph", registration), ("/serpent/registration/transform", registration),
    ("/serpent/debug/previous_pointcloud", registration && clouds), ("/serpent/debug/current_pointcloud", registration && clouds),
    ("/serpent/debug/imu_guess_pointcloud", registration && clouds),
    ("/serpent/debug/s2s_transformed_pointcloud", registration && clouds),
    ("/serpent/debug/s2m_transformed_pointcloud", registration && clouds),
    ("/serpent/debug/s2s_transformed_pointcloud_alt", registration && (clouds && alt)),
    ("/serpent/debug/s2m_transformed_pointcloud_alt", registration && (clouds && alt))]

/-- The topics of mapping and registration, relative. -/
def regPorts (u clouds alt : Bool) : List Port :=
  [("mapping/local_map", .cloud (.normal u)), ("output/global_map", .cloud (.normal u)), ("output/pose_graph", .poseGraph)] ++
    ([("registration/transform", .pose)] ++
    onlyIf clouds [("debug/previous_pointcloud", .cloud (.normal u)),
      ("debug/current_pointcloud", .cloud (.normal u)), ("debug/imu_guess_pointcloud", .cloud (.normal u)),
      ("debug/s2s_transformed_pointcloud", .cloud (.normal u)), ("debug/s2m_transformed_pointcloud", .cloud (.normal u))] ++
    onlyIf alt [("debug/s2s_transformed_pointcloud_alt", .cloud (.normal u)),
      ("debug/s2m_transformed_pointcloud_alt", .cloud (.normal u))])

theorem reg_part : ∀ u x y, Part (regTable true x y) (regPorts u x (x && y)) (regMax u) := by decide +kernel

theorem reg_part_none : ∀ x y, Part (regTable false x y) [] (regMax false) := by decide +kernel

/-- The topics of the tracking of features. -/
def stereoTable (stereo stats images points : Bool) : List (String × Bool) :=
  [("/serpent/stereo/features", stereo), ("/serpent/stereo/statistics", stereo && stats),
    ("/serpent/stereo/left/extracted_keypoints/image", stereo && images),
    ("/serpent/stereo/right/extracted_keypoints/image", stereo && images),
    ("/serpent/stereo/left/sof_matches/image", stereo && images), ("/serpent/stereo/right/sof_matches/image", stereo && images),
    ("/serpent/stereo/stereo_filtered_matches/image", stereo && images), ("/serpent/stereo/new_matches/image", stereo && images),
    ("/serpent/stereo/tracked_matches/image", stereo && images),
    ("/serpent/stereo/track_points", stereo && points)]

/-- The topics of the tracking of features, relative. -/
def stereoPorts (stats images points : Bool) : List Port :=
    [("stereo/features", .features)] ++
    onlyIf stats [("stereo/statistics", .trackerStatistics)] ++
    onlyIf images [("stereo/left/extracted_keypoints/image", .image),
      ("stereo/right/extracted_keypoints/image", .image), ("stereo/left/sof_matches/image", .image),
      ("stereo/right/sof_matches/image", .image), ("stereo/stereo_filtered_matches/image", .image),
      ("stereo/new_matches/image", .image), ("stereo/tracked_matches/image", .image)] ++
    onlyIf points [("stereo/track_points", .cloud .xyz)]

theorem stereo_part : ∀ x y z, Part (stereoTable true x y z) (stereoPorts x y z) stereoMax := by decide +kernel

theorem stereo_part_none : ∀ x y z, Part (stereoTable false x y z) [] stereoMax := by decide +kernel

theorem directions_eq {p : Server} {u : Bool} (h : Lidar.requiresUnitVectorsNamed (p.str "registration_covariance/method" "CENSI")
    (p.str "registration_covariance/point_covariance/method" "RANGE") = .ok u) : (cloudOptions p).directions = u := by
  unfold cloudOptions
  dsimp only
  generalize p.str "registration_covariance/method" "CENSI" = c at *
  generalize p.str "registration_covariance/point_covariance/method" "RANGE" = m at *
  unfold Lidar.requiresUnitVectorsNamed at h
  obtain ⟨c', hc, h⟩ := bind_eq_ok h
  obtain ⟨m', hm, h⟩ := bind_eq_ok h
  injection h with h
  subst h
  unfold Lidar.toCovMethod at hc
  unfold Lidar.toPointMethod at hm
  split at hc
  · injection hc with hc
    subst hc
    simp [Lidar.requiresUnitVectors, *]
  · split at hc
    · injection hc with hc
      subst hc
      repeat' split at hm
      all_goals first | (cases hm; done) | (injection hm with hm; subst hm; simp [Lidar.requiresUnitVectors, *])
    · split at hc
      · injection hc with hc
        subst hc
        repeat' split at hm
        all_goals first | (cases hm; done) | (injection hm with hm; subst hm; simp [Lidar.requiresUnitVectors, *])
      · cases hc

theorem table_part (h : single cv frames p = .ok s) {l : List Component}
    (hl : lidarFrontComponents p (s.lidar.map Prod.fst) = .ok l) : ∃ u, Part (topicTable p) (advertised s l) (allMax u) := by
  obtain ⟨hf, hb, -, hsl, hst, -⟩ := single_eq_ok.mp h
  obtain ⟨-, f1, f2, -⟩ := frontend_shared hf
  have hF : Part (frontTable (p.bool "optimisation/factors/stereo" true) (p.bool "optimisation/factors/barometer" true))
      (frontendComponent s.frontend).advertises frontMax := by
    rw [← f1, ← f2]
    exact front_part _ _
  have hB : Part (backTable (p.bool "debug/optimisation/publish_stereo_points" false))
      (backendComponent s.backend).advertises backMax := by
    have : s.backend.publishStereoPoints = p.bool "debug/optimisation/publish_stereo_points" false := by
      unfold backend at hb
      split at hb
      · cases hb
      · obtain ⟨_, -, hb⟩ := bind_eq_ok hb
        obtain ⟨_, -, hb⟩ := bind_eq_ok hb
        obtain ⟨_, -, hb⟩ := bind_eq_ok hb
        obtain ⟨_, -, hb⟩ := bind_eq_ok hb
        injection hb with e
        rw [← e]
    rw [← this]
    exact back_part _
  have hM : Part [("/serpent/formatter/formatted_pointcloud", true)] formatterComponent.advertises
      [("formatter/formatted_pointcloud", .cloud .any)] := by decide +kernel
  have hS : Part (stereoTable (p.bool "optimisation/factors/stereo" true) (p.bool "debug/stereo/publish_stats" false)
      (p.bool "debug/stereo/publish_intermediate_results" false) (p.bool "debug/stereo/publish_points" false))
      ((stereoComponents s.stereo).flatMap Component.advertises) stereoMax := by
    cases hs : s.stereo with
    | none =>
      rw [hs] at hst
      rw [← stereo_isSome hst]
      exact stereo_part_none _ _ _
    | some t =>
      rw [hs] at hst
      rw [← stereo_isSome hst]
      have hx := stereo_eq_ok hst
      unfold stereo at hx
      obtain ⟨_, -, hx⟩ := bind_eq_ok hx
      obtain ⟨_, -, hx⟩ := bind_eq_ok hx
      obtain ⟨_, -, hx⟩ := bind_eq_ok hx
      injection hx with e
      have e' : (stereoComponents (some t)).flatMap Component.advertises = stereoPorts t.publishStats t.publishIntermediate
        t.publishPoints := by simp [stereoComponents, stereoComponent, stereoPorts]
      rw [e', ← e]
      exact stereo_part _ _ _
  have hLR : ∃ u, Part (cloudTopics (cloudOptions p)) (l.flatMap Component.advertises) (lidarMax u) ∧
      Part (regTable (p.bool "optimisation/factors/registration" true) (p.bool "debug/registration/publish_clouds" false)
        (p.bool "debug/registration/publish_clouds_alt" false))
        ((lidarBackComponents (s.lidar.map Prod.snd)).flatMap Component.advertises) (regMax u) := by
    cases hs : s.lidar with
    | none =>
      rw [hs] at hl hsl
      injection hl with hl
      rw [← hl]
      have hr := lidar_isSome hsl
      refine ⟨false, lidar_part_none _ hr.symm, ?_⟩
      rw [← hr]
      exact reg_part_none _ _
    | some fb =>
      obtain ⟨f, b⟩ := fb
      have hu := (C128_unit_vectors h hs).1
      rw [hs] at hl hsl
      have hr := lidar_isSome hsl
      obtain ⟨-, -, -, -, hreg⟩ := lidar_eq_ok hsl
      unfold lidarFrontComponents at hl
      obtain ⟨links, hlinks, hl⟩ := bind_eq_ok hl
      injection hl with hl
      obtain ⟨u, hun, e⟩ := lidarNode_eq hlinks
      refine ⟨f.unit, ?_, ?_⟩
      · rw [← hl, e, List.flatMap_map]
        have hc : cloudOptions p = ⟨true, (filterConfig p).voxel, (filterConfig p).body, (filterConfig p).range,
            (filterConfig p).outliers, (filterConfig p).sample, u⟩ := by
          have h1 := directions_eq hun
          have h2 : (cloudOptions p).registration = true := hr.symm
          rw [← h1, ← h2]
          rfl
        rw [hc]
        exact lidar_part _ _ _ _ _ _ _
      · rw [← hr, hu]
        unfold registration at hreg
        obtain ⟨_, -, hreg⟩ := bind_eq_ok hreg
        obtain ⟨_, -, hreg⟩ := bind_eq_ok hreg
        obtain ⟨_, -, hreg⟩ := bind_eq_ok hreg
        split at hreg
        · cases hreg
        · injection hreg with e
          have e' : (lidarBackComponents ((some (f, b)).map Prod.snd)).flatMap Component.advertises =
              regPorts b.registration.unit b.registration.publishClouds b.registration.publishCloudsAlt := by
            simp [lidarBackComponents, mappingComponent, registrationComponent, regPorts]
          rw [e', ← e]
          exact reg_part _ _ _
  obtain ⟨u, hL, hR⟩ := hLR
  refine ⟨u, ?_⟩
  have n0 := nodup_allMax u
  unfold allMax at n0 ⊢
  have n1 := nodup_right n0
  have n2 := nodup_right n1
  have n3 := nodup_right n2
  have n4 := nodup_right n3
  exact part_append n0 hF (part_append n1 hB (part_append n2 hM (part_append n3 hL (part_append n4 hR hS))))

/-! ### Subscribers -/

theorem resolve_input_mem (a : Topics) {x : String} (h : x ∈ inputNames) : resolve (inputRemaps a) x ∈ (sensors a).map Prod.fst := by
  obtain ⟨r1, r2, r3, r4, r5, r6, r7⟩ := resolve_inputs a
  simp only [inputNames, List.mem_cons, List.not_mem_nil, or_false] at h
  rcases h with rfl | rfl | rfl | rfl | rfl | rfl | rfl <;> simp [sensors, *]

theorem count_resolve {a : Topics} (ho : Outside a) {x : String} (hx : x ∉ inputNames) (L : List Port) :
    ((L.map fun t => (resolve (inputRemaps a) t.1, t.2)).map Prod.fst).count ("/serpent/" ++ x) = (L.map Prod.fst).count x := by
  induction L with
  | nil => rfl
  | cons y L ih =>
    rw [List.map_cons, List.map_cons, List.map_cons, List.count_cons, List.count_cons, ih]
    congr 1
    by_cases hy : y.1 ∈ inputNames
    · have h1 : resolve (inputRemaps a) y.1 ≠ "/serpent/" ++ x := fun e => by
        obtain ⟨t, ht, e'⟩ := List.mem_map.1 (resolve_input_mem a hy)
        exact ho t ht x (e'.trans e)
      have h2 : y.1 ≠ x := fun e => hx (e ▸ hy)
      simp [h1, h2]
    · rw [resolve_other a hy]
      by_cases e : y.1 = x
      · simp [e]
      · have : "/serpent/" ++ y.1 ≠ "/serpent/" ++ x := fun e' => e (absolute_name e')
        simp [e, this]

/-- The names that the components other than the ones for pointclouds before mapping subscribe to. -/
def fixedReads (stereo barometer registration : Bool) : List String :=
  ["input/imu", "optimisation/imu_biases", "optimisation/odometry", "formatter/formatted_pointcloud"] ++
  (if stereo then ["input/stereo/left/image", "input/stereo/right/image", "input/stereo/left/camera_info",
    "input/stereo/right/camera_info"] else []) ++ (if barometer then ["input/barometer"] else []) ++
  (["frontend/imu_s2s", "frontend/initial_odometry"] ++ (if registration then ["registration/transform"] else []) ++
  (if stereo then ["stereo/features"] else []) ++ (if barometer then ["frontend/barometer"] else [])) ++ ["input/pointcloud"] ++
  (if registration then ["normal_estimation/pointcloud", "optimisation/path_changes", "normal_estimation/pointcloud",
    "optimisation/imu_transform", "mapping/local_map"] else []) ++
  (if stereo then ["stereo/left/image", "stereo/right/image", "stereo/left/camera_info", "stereo/right/camera_info"] else [])

/-- The first part of `readTable`, with relative names. -/
def fixedTable (stereo barometer registration : Bool) : List (String × Nat) :=
  [("optimisation/imu_biases", 1), ("optimisation/odometry", 1), ("formatter/formatted_pointcloud", 1),
    ("frontend/imu_s2s", 1), ("frontend/initial_odometry", 1),
    ("registration/transform", registration.toNat), ("stereo/features", stereo.toNat),
    ("frontend/barometer", barometer.toNat), ("normal_estimation/pointcloud", 2 * registration.toNat),
    ("optimisation/path_changes", registration.toNat), ("optimisation/imu_transform", registration.toNat),
    ("mapping/local_map", registration.toNat), ("stereo/left/image", stereo.toNat),
    ("stereo/right/image", stereo.toNat), ("stereo/left/camera_info", stereo.toNat),
    ("stereo/right/camera_info", stereo.toNat)]

/-- The second part of `readTable`, with relative names. -/
def linkTable (c : CloudOptions) : List (String × Nat) :=
  [("frontend/deskewed_pointcloud", c.registration.toNat),
    ("filter/voxel_filtered_pointcloud", (c.registration && (c.voxel && (c.body || c.range || c.outliers || c.sample))).toNat),
    ("filter/body_filtered_pointcloud", (c.registration && (c.body && (c.range || c.outliers || c.sample))).toNat),
    ("filter/range_filtered_pointcloud", (c.registration && (c.range && (c.outliers || c.sample))).toNat),
    ("filter/sor_filtered_pointcloud", (c.registration && (c.outliers && c.sample)).toNat),
    ("filter/filtered_pointcloud", (c.registration && (c.voxel || c.body || c.range || c.outliers || c.sample)).toNat),
    ("add_unit_vectors/pointcloud", (c.registration && c.directions).toNat)]

theorem readTable_eq (st ba : Bool) (c : CloudOptions) :
    readTable st ba c = (fixedTable st ba c.registration ++ linkTable c).map fun e => ("/serpent/" ++ e.1, e.2) := by
  unfold readTable fixedTable linkTable
  simp only [List.map_append, List.map_cons, List.map_nil]
  rfl

theorem fixed_count : ∀ st ba rg, ∀ e ∈ fixedTable st ba rg, (fixedReads st ba rg).count e.1 = e.2 := by decide +kernel

theorem fixed_cover : ∀ st ba rg, ∀ x ∈ fixedReads st ba rg, x ∈ inputNames ∨ x ∈ (fixedTable st ba rg).map Prod.fst := by
  decide +kernel

/-- The names that the components for pointclouds before mapping subscribe to. -/
def linkReads (v b r o s u : Bool) : List String := (linksOf v b r o s u).map Ros.Link.input

theorem link_count : ∀ v b r o s u, ∀ e ∈ linkTable ⟨true, v, b, r, o, s, u⟩, (linkReads v b r o s u).count e.1 = e.2 := by
  decide +kernel

theorem link_cover : ∀ v b r o s u, ∀ x ∈ linkReads v b r o s u, x ∈ (linkTable ⟨true, v, b, r, o, s, u⟩).map Prod.fst := by
  decide +kernel

/-- The names in `linkTable`. -/
def linkNames : List String := ["frontend/deskewed_pointcloud", "filter/voxel_filtered_pointcloud",
  "filter/body_filtered_pointcloud", "filter/range_filtered_pointcloud", "filter/sor_filtered_pointcloud",
  "filter/filtered_pointcloud", "add_unit_vectors/pointcloud"]

theorem linkTable_names (c : CloudOptions) : (linkTable c).map Prod.fst = linkNames := rfl

theorem fixed_disjoint : ∀ st ba rg, ∀ x ∈ linkNames, (x ∉ fixedReads st ba rg ∧ x ∉ (fixedTable st ba rg).map Prod.fst) ∧
    x ∉ inputNames := by decide +kernel

theorem fixed_not_input : ∀ st ba rg, ∀ e ∈ fixedTable st ba rg, e.1 ∉ inputNames := by decide +kernel

theorem count_perm {A B C : List String} (x : String) : (A ++ (B ++ C)).count x = (A ++ C).count x + B.count x := by
  simp only [List.count_append]
  omega

/-- What the system subscribes to, up to the order: the fixed names, and the inputs of the links. -/
theorem subscribed_names (h : single cv frames p = .ok s) {l : List Component}
    (hl : lidarFrontComponents p (s.lidar.map Prod.fst) = .ok l) : ∃ links : List String,
    (∀ x, ((subscribed s l).map Prod.fst).count x = (fixedReads (p.bool "optimisation/factors/stereo" true)
      (p.bool "optimisation/factors/barometer" true) (p.bool "optimisation/factors/registration" true)).count x + links.count x) ∧
    (∀ e ∈ linkTable (cloudOptions p), links.count e.1 = e.2) ∧ ∀ x ∈ links, x ∈ linkNames := by
  obtain ⟨hf, hb, -, hsl, hst, -⟩ := single_eq_ok.mp h
  obtain ⟨-, f1, f2, -⟩ := frontend_shared hf
  obtain ⟨-, b1, b2, b3, -⟩ := backend_shared hb
  have h3 := stereo_isSome hst
  have h4 := lidar_isSome hsl
  refine ⟨(l.flatMap Component.subscribes).map Prod.fst, ?_, ?_⟩
  · have e : ∀ x, ((subscribed s l).map Prod.fst).count x =
        (((frontendComponent s.frontend).subscribes ++ ((backendComponent s.backend).subscribes ++ (formatterComponent.subscribes ++
        ((lidarBackComponents (s.lidar.map Prod.snd)).flatMap Component.subscribes ++
        (stereoComponents s.stereo).flatMap Component.subscribes)))).map Prod.fst).count x +
        ((l.flatMap Component.subscribes).map Prod.fst).count x := by
      intro x
      simp only [subscribed, List.map_append, List.count_append]
      omega
    intro x
    rw [e]
    congr 2
    rw [← f1, ← f2] at *
    have hx : ((stereoComponents s.stereo).flatMap Component.subscribes).map Prod.fst = if s.frontend.stereo then
        ["stereo/left/image", "stereo/right/image", "stereo/left/camera_info", "stereo/right/camera_info"] else [] := by
      rw [← h3]
      cases s.stereo <;> rfl
    have hy : ((lidarBackComponents (s.lidar.map Prod.snd)).flatMap Component.subscribes).map Prod.fst =
        if p.bool "optimisation/factors/registration" true then ["normal_estimation/pointcloud", "optimisation/path_changes",
          "normal_estimation/pointcloud", "optimisation/imu_transform", "mapping/local_map"] else [] := by
      rw [← h4]
      cases s.lidar <;> rfl
    simp only [List.map_append, hx, hy, frontendComponent, backendComponent, formatterComponent, b1, b2, b3, fixedReads]
    generalize s.frontend.stereo = st
    generalize s.frontend.barometer = ba
    generalize p.bool "optimisation/factors/registration" true = rg
    cases st <;> cases ba <;> cases rg <;> rfl
  · cases hs : s.lidar with
    | none =>
      rw [hs] at hl h4
      injection hl with hl
      rw [← hl]
      refine ⟨fun e he => ?_, fun x hx => by simp at hx⟩
      have h5 : (cloudOptions p).registration = false := h4.symm
      simp only [linkTable, h5, List.mem_cons, List.not_mem_nil, or_false, Bool.false_and, Bool.toNat_false] at he
      rcases he with rfl | rfl | rfl | rfl | rfl | rfl | rfl <;> rfl
    | some fb =>
      rw [hs] at hl h4
      unfold lidarFrontComponents at hl
      obtain ⟨links, hlinks, hl⟩ := bind_eq_ok hl
      injection hl with hl
      obtain ⟨u, hun, e⟩ := lidarNode_eq hlinks
      have hc : cloudOptions p = ⟨true, (filterConfig p).voxel, (filterConfig p).body, (filterConfig p).range,
          (filterConfig p).outliers, (filterConfig p).sample, u⟩ := by
        have h1 := directions_eq hun
        have h2 : (cloudOptions p).registration = true := h4.symm
        rw [← h1, ← h2]
        rfl
      have e2 : (l.flatMap Component.subscribes).map Prod.fst = linkReads (filterConfig p).voxel (filterConfig p).body
          (filterConfig p).range (filterConfig p).outliers (filterConfig p).sample u := by
        rw [← hl, e]
        unfold linkReads
        generalize linksOf _ _ _ _ _ _ = L
        induction L with
        | nil => rfl
        | cons x L ih => simpa [linkComponent] using ih
      rw [e2, hc]
      refine ⟨link_count _ _ _ _ _ _, fun x hx => ?_⟩
      rw [← linkTable_names]
      exact link_cover _ _ _ _ _ _ x hx

end Wiring

end Serpent
