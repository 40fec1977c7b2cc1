import Verif.Spec.RegistrationDebug
import Verif.Props.Registration
import Verif.Props.CloudTransform
import Verif.Spec.Wiring

/-!
# Clouds of the registration for debugging (C151)
-/

namespace Serpent

namespace Lidar

open EigenExt CloudTransform Matrix

variable {K F P : Type} [CommRing K]

section
variable (o : DebugOptions) (ops : DebugOps K F P)

theorem debugRun_append (b : Bool) (a : List (RegEvent (Cloud K F) (Iso K))) (e : RegEvent (Cloud K F) (Iso K)) :
    debugRun o ops b (a ++ [e]) = debugStep o ops b (debugRun o ops b a) e := by
  unfold debugRun
  rw [List.foldl_append]; rfl

theorem debugStep_reg (b : Bool) (s : DebugState K F P) (e : RegEvent (Cloud K F) (Iso K)) :
    (debugStep o ops b s e).reg = regStep ops.toRegOps b s.reg e := by
  unfold debugStep regStep
  split
  · rfl
  · cases e with
    | map m => rfl
    | take => rfl
    | scan c g =>
      dsimp only
      unfold s2sCallbackDebug s2sCallback
      cases hp : s.reg.previous with
      | none => rfl
      | some prev =>
        dsimp only
        split
        · rw [← hp]
        · split
          · rfl
          · cases ops.refined c prev (ops.s2s c prev g) <;> rfl
    | finish =>
      dsimp only
      unfold s2mFinishDebug s2mFinish
      cases s.reg.busy with
      | none => rfl
      | some x =>
        obtain ⟨m, c, r⟩ := x
        dsimp only
        cases ops.refined c m (ops.s2m c m r) <;> rfl

/-- C151. Publishing clouds for debugging changes nothing else: for all options and all interleavings of the callbacks, the
registration does the same, publishes the same transforms and ends with the same exception. -/
theorem C151_harmless (b : Bool) (events : List (RegEvent (Cloud K F) (Iso K))) :
    (debugRun o ops b events).reg = regRun ops.toRegOps b events := by
  induction events using List.reverseRecOn with
  | nil => rfl
  | append_singleton es e ih => rw [debugRun_append, debugStep_reg, ih, run_append]

omit [CommRing K] in
theorem onTopic_append (t : DebugTopic) (a b : List (DebugTopic × Cloud K F)) : onTopic t (a ++ b) = onTopic t a ++ onTopic t b := by
  unfold onTopic
  rw [List.filter_append, List.map_append]

/-- C151. Without `publish_clouds` nothing is published for debugging, whatever `publish_clouds_alt`; without `publish_clouds_alt`
nothing is published on the two topics of that option. -/
theorem C151_off (b : Bool) (events : List (RegEvent (Cloud K F) (Iso K))) :
    (o.clouds = false → (debugRun o ops b events).debug = []) ∧
    (o.alt = false → onTopic .s2sAlt (debugRun o ops b events).debug = [] ∧ onTopic .s2mAlt (debugRun o ops b events).debug = []) := by
  have hg : ∀ c p g, onTopic .s2sAlt (guessClouds o ops c p g) = [] ∧ onTopic .s2mAlt (guessClouds o ops c p g) = [] := by
    intro c p g
    unfold guessClouds
    split <;> exact ⟨rfl, rfl⟩
  constructor
  · intro h
    induction events using List.reverseRecOn with
    | nil => rfl
    | append_singleton es e ih =>
      rw [debugRun_append]
      unfold debugStep
      generalize debugRun o ops b es = s at *
      split
      · exact ih
      · cases e with
        | map m => exact ih
        | take => exact ih
        | scan c g =>
          dsimp only
          unfold s2sCallbackDebug
          cases s.reg.previous with
          | none => exact ih
          | some prev =>
            have e1 : guessClouds o ops c prev g = [] := by unfold guessClouds; rw [h]; rfl
            have e2 : resultClouds o ops c prev g (ops.s2s c prev g) = [] := by unfold resultClouds; rw [h]; rfl
            dsimp only
            rw [e1, e2, ih]
            split
            · rfl
            · split
              · rfl
              · cases ops.refined c prev (ops.s2s c prev g) <;> rfl
        | finish =>
          dsimp only
          unfold s2mFinishDebug
          cases s.reg.busy with
          | none => exact ih
          | some x =>
            obtain ⟨m, c, r⟩ := x
            have e1 : mapClouds o ops c m r (ops.s2m c m r) = [] := by unfold mapClouds; rw [h]; rfl
            dsimp only
            rw [e1, ih]
            cases ops.refined c m (ops.s2m c m r) <;> rfl
  · intro h
    induction events using List.reverseRecOn with
    | nil => exact ⟨rfl, rfl⟩
    | append_singleton es e ih =>
      rw [debugRun_append]
      unfold debugStep
      generalize debugRun o ops b es = s at *
      split
      · exact ih
      · cases e with
        | map m => exact ih
        | take => exact ih
        | scan c g =>
          dsimp only
          unfold s2sCallbackDebug
          cases s.reg.previous with
          | none => exact ih
          | some prev =>
            have e2 : onTopic .s2sAlt (resultClouds o ops c prev g (ops.s2s c prev g)) = [] ∧
                onTopic .s2mAlt (resultClouds o ops c prev g (ops.s2s c prev g)) = [] := by
              unfold resultClouds; rw [h]; dsimp only
              split <;> exact ⟨rfl, rfl⟩
            have key : onTopic .s2sAlt (s.debug ++ guessClouds o ops c prev g ++ resultClouds o ops c prev g (ops.s2s c prev g)) = [] ∧
                onTopic .s2mAlt (s.debug ++ guessClouds o ops c prev g ++ resultClouds o ops c prev g (ops.s2s c prev g)) = [] := by
              rw [onTopic_append, onTopic_append, onTopic_append, onTopic_append, ih.1, ih.2, (hg c prev g).1, (hg c prev g).2, e2.1, e2.2]
              exact ⟨rfl, rfl⟩
            dsimp only
            split
            · exact key
            · split
              · exact key
              · cases ops.refined c prev (ops.s2s c prev g) <;> exact key
        | finish =>
          dsimp only
          unfold s2mFinishDebug
          cases s.reg.busy with
          | none => exact ih
          | some x =>
            obtain ⟨m, c, r⟩ := x
            have key : onTopic .s2sAlt (s.debug ++ mapClouds o ops c m r (ops.s2m c m r)) = [] ∧
                onTopic .s2mAlt (s.debug ++ mapClouds o ops c m r (ops.s2m c m r)) = [] := by
              rw [onTopic_append, onTopic_append, ih.1, ih.2]
              unfold mapClouds; rw [h]; dsimp only
              split <;> exact ⟨rfl, rfl⟩
            dsimp only
            cases ops.refined c m (ops.s2m c m r) <;> exact key

theorem moved_transform (kind : PointKind) (f0 : F) (src : Cloud K F) (T : Iso K) :
    Moved T src (transformPointcloud kind f0 src T) := by
  have key : ∀ body : Point K F → Point K F → Point K F,
      (∀ p, (body p p).pos = se3 T p.pos ∧ (body p p).normal = so3 T p.normal ∧ (body p p).other = p.other) →
      Moved T src (transformWith body f0 src (some ⟨0, "", 0, 0, true, []⟩) true) := by
    intro body hb
    refine ⟨transformWith_length _ _ _ _ _, fun i p hp => ?_⟩
    obtain ⟨q0, h0, h⟩ := transformWith_get body f0 src (some ⟨0, "", 0, 0, true, []⟩) true hp
    obtain rfl := h0 (.inr rfl)
    refine ⟨_, h, ?_, fun x hx => ?_⟩
    · split
      · exact (hb q0).2.2
      · split
        · rfl
        · exact (hb q0).2.2
    · have hx' : q0.pos.Is x := hx
      rw [finite?_eq.2 hx']
      simp only [Option.isNone_some, Bool.false_eq_true, if_false, ite_self]
      rw [(hb q0).1, (hb q0).2.1]
      exact ⟨onFinite_is hx', fun n hn => onFinite_is (v := q0.normal) hn⟩
  cases kind with
  | normals => exact key _ fun p => ⟨rfl, rfl, rfl⟩
  | units => exact key _ fun p => ⟨rfl, rfl, rfl⟩
  | covariances => exact key _ fun p => ⟨rfl, rfl, rfl⟩

/-- What is published on a topic for a scan `b` after the scan `a`. -/
def scanOutput (t : DebugTopic) (a b : Cloud K F × Iso K) : List (Cloud K F) :=
  onTopic t (guessClouds o ops b.1 a.1 b.2 ++ resultClouds o ops b.1 a.1 b.2 (ops.s2s b.1 a.1 b.2))

/-- Invariant for the topics of scans: `S` are the scans handled so far. -/
structure ScanInv (events : List (RegEvent (Cloud K F) (Iso K))) (s : DebugState K F P) (S : List (Cloud K F × Iso K)) : Prop where
  prefix_ : S <+: scansOf events
  alive : s.reg.alive = true → S = scansOf events
  previous : s.reg.alive = true → s.reg.previous = S.getLast?.map (·.1)
  output : ∀ t : DebugTopic, t.OfScan → onTopic t s.debug = (consecutive (scanOutput o ops t) S).flatten

theorem scan_inv (b : Bool) (events : List (RegEvent (Cloud K F) (Iso K))) :
    ∃ S, ScanInv o ops events (debugRun o ops b events) S := by
  induction events using List.reverseRecOn with
  | nil => exact ⟨[], List.nil_prefix, fun _ => rfl, fun _ => rfl, fun _ _ => rfl⟩
  | append_singleton es e ih =>
    obtain ⟨S, h⟩ := ih
    rw [debugRun_append]
    unfold debugStep
    generalize debugRun o ops b es = s at *
    have hp : S <+: scansOf (es ++ [e]) := by
      rw [scansOf_append]; exact h.prefix_.trans (List.prefix_append _ _)
    split
    · rename_i hd
      exact ⟨S, hp, fun h' => by rw [hd] at h'; (cases h'), fun h' => by rw [hd] at h'; (cases h'), h.output⟩
    · rename_i hd
      have ha : s.reg.alive = true := by simpa using hd
      cases e with
      | map m =>
        have e1 : scansOf (es ++ [RegEvent.map m]) = scansOf es := by rw [scansOf_append]; simp [scansOf]
        exact ⟨S, hp, fun h' => by rw [e1]; exact h.alive ha, fun _ => h.previous ha, h.output⟩
      | take =>
        have e1 : scansOf (es ++ [RegEvent.take]) = scansOf es := by rw [scansOf_append]; simp [scansOf]
        refine ⟨S, hp, fun h' => by rw [e1]; exact h.alive ha, fun _ => ?_, h.output⟩
        show (s2mTake s.reg).previous = _
        rw [← h.previous ha]
        unfold s2mTake
        split <;> rfl
      | finish =>
        have e1 : scansOf (es ++ [RegEvent.finish]) = scansOf es := by rw [scansOf_append]; simp [scansOf]
        dsimp only
        unfold s2mFinishDebug
        cases hb : s.reg.busy with
        | none => exact ⟨S, hp, fun h' => by rw [e1]; exact h.alive ha, fun _ => h.previous ha, h.output⟩
        | some x =>
          obtain ⟨m, c, r⟩ := x
          have key : ∀ t : DebugTopic, t.OfScan → onTopic t (s.debug ++ mapClouds o ops c m r (ops.s2m c m r)) =
              (consecutive (scanOutput o ops t) S).flatten := by
            intro t ht
            rw [onTopic_append, h.output t ht]
            have : onTopic t (mapClouds o ops c m r (ops.s2m c m r)) = [] := by
              unfold mapClouds
              dsimp only
              split
              · split <;> cases t <;> first | rfl | exact absurd ht id
              · rfl
            rw [this, List.append_nil]
          dsimp only
          cases ops.refined c m (ops.s2m c m r) with
          | ok p => exact ⟨S, hp, fun _ => by rw [e1]; exact h.alive ha, fun _ => h.previous ha, key⟩
          | throws => exact ⟨S, hp, fun h' => absurd h' Bool.false_ne_true, fun h' => absurd h' Bool.false_ne_true, key⟩
          | ub => exact ⟨S, hp, fun h' => absurd h' Bool.false_ne_true, fun h' => absurd h' Bool.false_ne_true, key⟩
      | scan c g =>
        have e1 : scansOf (es ++ [RegEvent.scan c g]) = scansOf es ++ [(c, g)] := by rw [scansOf_append]; simp [scansOf]
        have hS := h.alive ha
        have hq := h.previous ha
        have elast : (S ++ [(c, g)]).getLast?.map (·.1) = some c := by simp
        have hp' : S ++ [(c, g)] <+: scansOf (es ++ [RegEvent.scan c g]) := by rw [e1, hS]
        dsimp only
        unfold s2sCallbackDebug
        cases hprev : s.reg.previous with
        | none =>
          rw [hprev] at hq
          have hl : S.getLast? = none := by
            cases hl : S.getLast? with
            | none => rfl
            | some x => rw [hl] at hq; cases hq
          refine ⟨S ++ [(c, g)], hp', fun _ => by rw [e1, hS], fun _ => elast.symm, fun t ht => ?_⟩
          rw [consecutive_append, hl]
          show onTopic t s.debug = _
          rw [List.append_nil]
          exact h.output t ht
        | some prev =>
          rw [hprev] at hq
          obtain ⟨x, hx, hx1⟩ : ∃ x, S.getLast? = some x ∧ x.1 = prev := by
            cases hl : S.getLast? with
            | none => rw [hl] at hq; cases hq
            | some x => rw [hl] at hq; exact ⟨x, rfl, (Option.some.inj hq).symm⟩
          have key : ∀ t : DebugTopic, t.OfScan →
              onTopic t (s.debug ++ guessClouds o ops c prev g ++ resultClouds o ops c prev g (ops.s2s c prev g)) =
              (consecutive (scanOutput o ops t) (S ++ [(c, g)])).flatten := by
            intro t ht
            rw [consecutive_append, hx, List.flatten_append, ← h.output t ht, List.append_assoc, onTopic_append]
            show _ = _ ++ [scanOutput o ops t x (c, g)].flatten
            rw [List.flatten_cons, List.flatten_nil, List.append_nil]
            unfold scanOutput
            rw [hx1]
          dsimp only
          split
          · exact ⟨_, hp', fun h' => absurd h' Bool.false_ne_true, fun h' => absurd h' Bool.false_ne_true, key⟩
          · split
            · exact ⟨_, hp', fun _ => by rw [e1, hS], fun _ => elast.symm, key⟩
            · cases ops.refined c prev (ops.s2s c prev g) with
              | ok p => exact ⟨_, hp', fun _ => by rw [e1, hS], fun _ => elast.symm, key⟩
              | throws => exact ⟨_, hp', fun h' => absurd h' Bool.false_ne_true, fun h' => absurd h' Bool.false_ne_true, key⟩
              | ub => exact ⟨_, hp', fun h' => absurd h' Bool.false_ne_true, fun h' => absurd h' Bool.false_ne_true, key⟩

theorem consecutive_length {α β : Type} (f : α → α → β) (l : List α) : (consecutive f l).length = l.length - 1 := by
  induction l with
  | nil => rfl
  | cons a l ih =>
    cases l with
    | nil => rfl
    | cons b l =>
      show (consecutive f (b :: l)).length + 1 = _
      rw [ih]; rfl

theorem consecutive_get {α β : Type} (f : α → α → β) (l : List α) (k : Nat) (a b : α) (ha : l[k]? = some a)
    (hb : l[k + 1]? = some b) : (consecutive f l)[k]? = some (f a b) := by
  induction l generalizing k with
  | nil => cases ha
  | cons x l ih =>
    cases l with
    | nil => cases hb
    | cons y l =>
      cases k with
      | zero =>
        obtain rfl := Option.some.inj ha
        obtain rfl := Option.some.inj hb
        rfl
      | succ k => exact ih k ha hb

theorem flatten_single {α β : Type} (f : α → α → List β) (g : α → α → β) (h : ∀ a b, f a b = [g a b]) (l : List α) :
    (consecutive f l).flatten = consecutive g l := by
  induction l with
  | nil => rfl
  | cons a l ih =>
    cases l with
    | nil => rfl
    | cons b l =>
      show f a b ++ (consecutive f (b :: l)).flatten = g a b :: consecutive g (b :: l)
      rw [ih, h]; rfl

/-- C151. With `publish_clouds`, in every interleaving of the callbacks: for each scan after the first that was handled (all scans, as
long as no exception ended the process) exactly one cloud is published on each of four topics, and on a fifth with
`publish_clouds_alt`. All of them have the stamp of the scan before and the frame of the lidar, so that they are shown together. They
are the points of the scan, those of the scan before, those of the scan moved by its initial guess, what the registration filled in,
and the points of the scan moved by the result of the registration. -/
theorem C151_scans (hc : o.clouds = true) (s2m : Bool) (events : List (RegEvent (Cloud K F) (Iso K))) :
    ∃ S, S <+: scansOf events ∧ ((debugRun o ops s2m events).reg.alive = true → S = scansOf events) ∧
      (∀ t ∈ [DebugTopic.current, .previous, .imuGuess, .s2s], (onTopic t (debugRun o ops s2m events).debug).length = S.length - 1) ∧
      (o.alt = true → (onTopic .s2sAlt (debugRun o ops s2m events).debug).length = S.length - 1) ∧
      ∀ (k : Nat) (before scan : Cloud K F) (g₀ guess : Iso K), S[k]? = some (before, g₀) → S[k + 1]? = some (scan, guess) →
        ∃ current previous guessed registered : Cloud K F,
          (onTopic .current (debugRun o ops s2m events).debug)[k]? = some current ∧
          (onTopic .previous (debugRun o ops s2m events).debug)[k]? = some previous ∧
          (onTopic .imuGuess (debugRun o ops s2m events).debug)[k]? = some guessed ∧
          (onTopic .s2s (debugRun o ops s2m events).debug)[k]? = some registered ∧
          (∀ c ∈ [current, previous, guessed, registered], c.stamp = before.stamp ∧ c.frame = ops.frame) ∧
          current.points = scan.points ∧ previous.points = before.points ∧ Moved guess scan guessed ∧
          registered.points = (ops.s2sCloud scan before guess).points ∧
          (o.alt = true → ∃ alt, (onTopic .s2sAlt (debugRun o ops s2m events).debug)[k]? = some alt ∧ alt.stamp = before.stamp ∧
            alt.frame = ops.frame ∧ Moved (ops.s2s scan before guess) scan alt) := by
  obtain ⟨S, h⟩ := scan_inv o ops s2m events
  generalize debugRun o ops s2m events = s at *
  have h1 : onTopic .current s.debug = consecutive
      (fun a b : Cloud K F × Iso K => ({ b.1 with stamp := a.1.stamp, frame := ops.frame } : Cloud K F)) S := by
    rw [h.output .current trivial]
    refine flatten_single _ _ (fun a b => ?_) S
    unfold scanOutput guessClouds resultClouds
    rw [hc]; cases o.alt <;> rfl
  have h2 : onTopic .previous s.debug = consecutive
      (fun a _ : Cloud K F × Iso K => ({ a.1 with frame := ops.frame } : Cloud K F)) S := by
    rw [h.output .previous trivial]
    refine flatten_single _ _ (fun a b => ?_) S
    unfold scanOutput guessClouds resultClouds
    rw [hc]; cases o.alt <;> rfl
  have h3 : onTopic .imuGuess s.debug = consecutive
      (fun a b : Cloud K F × Iso K => ({ transformPointcloud ops.kind ops.default b.1 b.2 with
        stamp := a.1.stamp, frame := ops.frame } : Cloud K F)) S := by
    rw [h.output .imuGuess trivial]
    refine flatten_single _ _ (fun a b => ?_) S
    unfold scanOutput guessClouds resultClouds
    rw [hc]; cases o.alt <;> rfl
  have h4 : onTopic .s2s s.debug = consecutive
      (fun a b : Cloud K F × Iso K => ({ ops.s2sCloud b.1 a.1 b.2 with stamp := a.1.stamp, frame := ops.frame } : Cloud K F)) S := by
    rw [h.output .s2s trivial]
    refine flatten_single _ _ (fun a b => ?_) S
    unfold scanOutput guessClouds resultClouds
    rw [hc]; cases o.alt <;> rfl
  have h5 : o.alt = true → onTopic .s2sAlt s.debug = consecutive
      (fun a b : Cloud K F × Iso K => ({ transformPointcloud ops.kind ops.default b.1 (ops.s2s b.1 a.1 b.2) with
        stamp := a.1.stamp, frame := ops.frame } : Cloud K F)) S := by
    intro ha
    rw [h.output .s2sAlt trivial]
    refine flatten_single _ _ (fun a b => ?_) S
    unfold scanOutput guessClouds resultClouds
    rw [hc, ha]; rfl
  refine ⟨S, h.prefix_, h.alive, ?_, fun ha => by rw [h5 ha, consecutive_length], ?_⟩
  · intro t ht
    simp only [List.mem_cons, List.not_mem_nil, or_false] at ht
    rcases ht with rfl | rfl | rfl | rfl
    · rw [h1, consecutive_length]
    · rw [h2, consecutive_length]
    · rw [h3, consecutive_length]
    · rw [h4, consecutive_length]
  · intro k before scan g₀ guess hb hs
    refine ⟨{ scan with stamp := before.stamp, frame := ops.frame }, { before with frame := ops.frame },
      { transformPointcloud ops.kind ops.default scan guess with stamp := before.stamp, frame := ops.frame },
      { ops.s2sCloud scan before guess with stamp := before.stamp, frame := ops.frame }, by rw [h1]; exact consecutive_get _ S k _ _ hb hs, by rw [h2]; exact consecutive_get _ S k _ _ hb hs,
      by rw [h3]; exact consecutive_get _ S k _ _ hb hs, by rw [h4]; exact consecutive_get _ S k _ _ hb hs, ?_, rfl, rfl,
      moved_transform ops.kind ops.default scan guess, rfl, fun ha => ?_⟩
    · intro c hc
      simp only [List.mem_cons, List.not_mem_nil, or_false] at hc
      rcases hc with rfl | rfl | rfl | rfl <;> exact ⟨rfl, rfl⟩
    · exact ⟨{ transformPointcloud ops.kind ops.default scan (ops.s2s scan before guess) with
          stamp := before.stamp, frame := ops.frame }, by rw [h5 ha]; exact consecutive_get _ S k _ _ hb hs, rfl, rfl,
        moved_transform ops.kind ops.default scan (ops.s2s scan before guess)⟩

/-- The `k`-th cloud of the topics for maps belongs to the `k`-th scan after the first, its result and the `k`-th map. -/
def MapOutput (events : List (RegEvent (Cloud K F) (Iso K))) (s : DebugState K F P) : Prop :=
  ∀ k < (onTopic .s2m s.debug).length, ∃ scan before r map, (scanToScan ops.s2s (scansOf events))[k]? = some (scan, before, r) ∧
    (mapsOf events)[k]? = some map ∧
    (onTopic .s2m s.debug)[k]? = some { ops.s2mCloud scan map r with stamp := map.stamp, frame := ops.frame } ∧
    (o.alt = true → (onTopic .s2mAlt s.debug)[k]? = some { transformPointcloud ops.kind ops.default scan (ops.s2m scan map r) with
      stamp := map.stamp, frame := ops.frame })

structure MapInv (events : List (RegEvent (Cloud K F) (Iso K))) (s : DebugState K F P) : Prop where
  output : MapOutput o ops events s
  alt : o.alt = true → (onTopic .s2mAlt s.debug).length = (onTopic .s2m s.debug).length
  alive : s.reg.alive = true → (onTopic .s2m s.debug).length = s.reg.published.length

theorem map_inv (hc : o.clouds = true) (events : List (RegEvent (Cloud K F) (Iso K))) :
    MapInv o ops events (debugRun o ops true events) := by
  induction events using List.reverseRecOn with
  | nil => exact ⟨fun k hk => absurd hk (Nat.not_lt_zero k), fun _ => rfl, fun _ => rfl⟩
  | append_singleton es e ih =>
    have hreg := C151_harmless o ops true es
    have hinv := s2m_inv ops.toRegOps es
    rw [← hreg] at hinv
    rw [debugRun_append]
    generalize debugRun o ops true es = s at *
    obtain ⟨R', hR⟩ : ∃ R', scanToScan ops.s2s (scansOf (es ++ [e])) = scanToScan ops.s2s (scansOf es) ++ R' := by
      rw [scansOf_append]
      cases e with
      | scan c g => exact ⟨_, scanToScan_append ops.s2s (scansOf es) (c, g)⟩
      | map _ => exact ⟨[], by simp [scansOf]⟩
      | take => exact ⟨[], by simp [scansOf]⟩
      | finish => exact ⟨[], by simp [scansOf]⟩
    have hM := mapsOf_append es [e]
    have mono : ∀ s', onTopic .s2m s'.debug = onTopic .s2m s.debug → onTopic .s2mAlt s'.debug = onTopic .s2mAlt s.debug →
        MapOutput o ops (es ++ [e]) s' := by
      intro s' h1 h2 k hk
      rw [h1] at hk
      obtain ⟨scan, before, r, map, q1, q2, q3, q4⟩ := ih.output k hk
      refine ⟨scan, before, r, map, ?_, ?_, by rw [h1]; exact q3, fun ha => by rw [h2]; exact q4 ha⟩
      · rw [hR, List.getElem?_append_left (List.getElem?_eq_some_iff.1 q1).1, q1]
      · rw [hM, List.getElem?_append_left (List.getElem?_eq_some_iff.1 q2).1, q2]
    unfold debugStep
    split
    · exact ⟨mono s rfl rfl, ih.alt, ih.alive⟩
    · rename_i hd
      have ha : s.reg.alive = true := by simpa using hd
      cases e with
      | map m => exact ⟨mono _ rfl rfl, ih.alt, fun _ => ih.alive ha⟩
      | take =>
        refine ⟨mono _ rfl rfl, ih.alt, fun _ => ?_⟩
        show (onTopic .s2m s.debug).length = (s2mTake s.reg).published.length
        rw [ih.alive ha]
        unfold s2mTake
        split <;> rfl
      | scan c g =>
        dsimp only
        unfold s2sCallbackDebug
        cases hprev : s.reg.previous with
        | none => exact ⟨mono _ rfl rfl, ih.alt, fun _ => ih.alive ha⟩
        | some prev =>
          have k1 : ∀ t : DebugTopic, ¬ t.OfScan → onTopic t (s.debug ++ guessClouds o ops c prev g ++
              resultClouds o ops c prev g (ops.s2s c prev g)) = onTopic t s.debug := by
            intro t ht
            rw [onTopic_append, onTopic_append]
            have a1 : onTopic t (guessClouds o ops c prev g) = [] := by
              unfold guessClouds
              rw [if_pos hc]
              cases t <;> first | rfl | exact absurd trivial ht
            have a2 : onTopic t (resultClouds o ops c prev g (ops.s2s c prev g)) = [] := by
              unfold resultClouds
              dsimp only
              rw [if_pos hc]
              cases o.alt <;> cases t <;> first | rfl | exact absurd trivial ht
            rw [a1, a2, List.append_nil, List.append_nil]
          have k2 := k1 .s2m id
          have k3 := k1 .s2mAlt id
          dsimp only
          split
          · exact ⟨mono _ k2 k3, fun h' => by rw [k2, k3]; exact ih.alt h', fun h' => absurd h' Bool.false_ne_true⟩
          · rw [if_pos rfl]
            exact ⟨mono _ k2 k3, fun h' => by rw [k2, k3]; exact ih.alt h', fun _ => by rw [k2]; exact ih.alive ha⟩
      | finish =>
        dsimp only
        unfold s2mFinishDebug
        cases hb : s.reg.busy with
        | none => exact ⟨mono _ rfl rfl, ih.alt, fun _ => ih.alive ha⟩
        | some x =>
          obtain ⟨m, c, r⟩ := x
          obtain ⟨n, q⟩ := hinv.queues ha
          obtain ⟨_, b2, pv, b3⟩ := q.busy m c r hb
          have hl := ih.alive ha
          have k2 : onTopic .s2m (s.debug ++ mapClouds o ops c m r (ops.s2m c m r)) =
              onTopic .s2m s.debug ++ [{ ops.s2mCloud c m r with stamp := m.stamp, frame := ops.frame }] := by
            rw [onTopic_append]
            unfold mapClouds; rw [hc]; cases o.alt <;> rfl
          have k3 : o.alt = true → onTopic .s2mAlt (s.debug ++ mapClouds o ops c m r (ops.s2m c m r)) =
              onTopic .s2mAlt s.debug ++ [{ transformPointcloud ops.kind ops.default c (ops.s2m c m r) with
                stamp := m.stamp, frame := ops.frame }] := by
            intro h'
            rw [onTopic_append]
            unfold mapClouds; rw [hc, h']; rfl
          have out : ∀ reg, MapOutput o ops (es ++ [RegEvent.finish])
              ⟨reg, s.debug ++ mapClouds o ops c m r (ops.s2m c m r)⟩ := by
            intro reg k hk
            dsimp only at hk ⊢
            rw [k2, List.length_append] at hk
            by_cases hlt : k < (onTopic .s2m s.debug).length
            · obtain ⟨scan, before, r', map, q1, q2, q3, q4⟩ := mono s rfl rfl k hlt
              refine ⟨scan, before, r', map, q1, q2, by rw [k2, List.getElem?_append_left hlt, q3], fun h' => ?_⟩
              rw [k3 h', List.getElem?_append_left (by rw [ih.alt h']; exact hlt), q4 h']
            · have hke : k = (onTopic .s2m s.debug).length := by
                have : k < (onTopic .s2m s.debug).length + 1 := hk
                omega
              subst hke
              refine ⟨c, pv, r, m, ?_, ?_, by rw [k2, List.getElem?_concat_length], fun h' => ?_⟩
              · rw [hl, hR, List.getElem?_append_left (List.getElem?_eq_some_iff.1 b3).1]; exact b3
              · rw [hl, hM, List.getElem?_append_left (List.getElem?_eq_some_iff.1 b2).1]; exact b2
              · rw [k3 h', ← ih.alt h', List.getElem?_concat_length]
          have alt : o.alt = true → (onTopic .s2mAlt (s.debug ++ mapClouds o ops c m r (ops.s2m c m r))).length =
              (onTopic .s2m (s.debug ++ mapClouds o ops c m r (ops.s2m c m r))).length := by
            intro h'
            rw [k2, k3 h', List.length_append, List.length_append, ih.alt h']; rfl
          dsimp only
          cases ops.refined c m (ops.s2m c m r) with
          | ok p =>
            refine ⟨out _, alt, fun _ => ?_⟩
            show (onTopic .s2m (s.debug ++ mapClouds o ops c m r (ops.s2m c m r))).length = (s.reg.published ++ [p]).length
            rw [k2, List.length_append, List.length_append, hl]; rfl
          | throws => exact ⟨out _, alt, fun h' => absurd h' Bool.false_ne_true⟩
          | ub => exact ⟨out _, alt, fun h' => absurd h' Bool.false_ne_true⟩

/-- C151, with scan-to-map. As long as no exception ended the process there is one cloud for each transform that is published. The
`k`-th belongs to the `k`-th scan after the first, to the `k`-th map and to the scan-to-scan result of that scan: it is what the
registration to the map filled in, with the stamp of the map and the frame of the lidar. With `publish_clouds_alt` there is another
with the same header, the points of the scan moved by the result of the registration to the map. -/
theorem C151_maps (hc : o.clouds = true) (events : List (RegEvent (Cloud K F) (Iso K))) :
    ((debugRun o ops true events).reg.alive = true →
      (onTopic .s2m (debugRun o ops true events).debug).length = (debugRun o ops true events).reg.published.length) ∧
    (o.alt = true → (onTopic .s2mAlt (debugRun o ops true events).debug).length =
      (onTopic .s2m (debugRun o ops true events).debug).length) ∧
    ∀ (k : Nat) (c : Cloud K F), (onTopic .s2m (debugRun o ops true events).debug)[k]? = some c →
      ∃ scan before r map, (scanToScan ops.s2s (scansOf events))[k]? = some (scan, before, r) ∧ (mapsOf events)[k]? = some map ∧
        c.points = (ops.s2mCloud scan map r).points ∧ c.stamp = map.stamp ∧ c.frame = ops.frame ∧
        (o.alt = true → ∃ alt, (onTopic .s2mAlt (debugRun o ops true events).debug)[k]? = some alt ∧ alt.stamp = map.stamp ∧
          alt.frame = ops.frame ∧ Moved (ops.s2m scan map r) scan alt) := by
  have h := map_inv o ops hc events
  refine ⟨h.alive, h.alt, fun k c hk => ?_⟩
  obtain ⟨scan, before, r, map, q1, q2, q3, q4⟩ := h.output k (List.getElem?_eq_some_iff.1 hk).1
  rw [hk] at q3
  obtain rfl := Option.some.inj q3
  exact ⟨scan, before, r, map, q1, q2, rfl, rfl, rfl, fun ha => ⟨_, q4 ha, rfl, rfl, moved_transform ops.kind ops.default scan _⟩⟩

/-- C151, without scan-to-map nothing is published on the topics for maps. -/
theorem C151_no_maps (events : List (RegEvent (Cloud K F) (Iso K))) :
    onTopic .s2m (debugRun o ops false events).debug = [] ∧ onTopic .s2mAlt (debugRun o ops false events).debug = [] := by
  induction events using List.reverseRecOn with
  | nil => exact ⟨rfl, rfl⟩
  | append_singleton es e ih =>
    have hreg := C151_harmless o ops false es
    have hinv := s2s_inv ops.toRegOps es
    rw [← hreg] at hinv
    rw [debugRun_append]
    generalize debugRun o ops false es = s at *
    unfold debugStep
    split
    · exact ih
    · cases e with
      | map m => exact ih
      | take => exact ih
      | finish =>
        dsimp only
        unfold s2mFinishDebug
        rw [hinv.idle.1]
        exact ih
      | scan c g =>
        dsimp only
        unfold s2sCallbackDebug
        cases hprev : s.reg.previous with
        | none => exact ih
        | some prev =>
          have k1 : ∀ t : DebugTopic, ¬ t.OfScan → onTopic t s.debug = [] → onTopic t (s.debug ++ guessClouds o ops c prev g ++
              resultClouds o ops c prev g (ops.s2s c prev g)) = [] := by
            intro t ht h0
            rw [onTopic_append, onTopic_append, h0]
            unfold guessClouds resultClouds
            dsimp only
            split
            · split <;> cases t <;> first | rfl | exact absurd trivial ht
            · rfl
          have key := And.intro (k1 .s2m id ih.1) (k1 .s2mAlt id ih.2)
          dsimp only
          split
          · exact key
          · rw [if_neg Bool.false_ne_true]
            cases ops.refined c prev (ops.s2s c prev g) <;> exact key

end

/-- C151. The clouds are published on topics that exist with these options (they are in the table that C131 shows to be the topics of
the system): the two last ones if both options are set, the others if `publish_clouds` is set. -/
theorem C151_advertised (p : Params.Server) (t : DebugTopic) :
    ("/serpent/" ++ t.name, p.bool "optimisation/factors/registration" true && (p.bool "debug/registration/publish_clouds" false &&
      (decide (t ≠ .s2sAlt ∧ t ≠ .s2mAlt) || p.bool "debug/registration/publish_clouds_alt" false))) ∈ Wiring.topicTable p := by
  unfold Wiring.topicTable
  dsimp only
  refine List.mem_append_right _ (List.mem_append_right _ (List.mem_append_right _ (List.mem_append_right _ (List.mem_append_left _ ?_))))
  cases t <;> simp [DebugTopic.name]

/-! ### Examples -/

/-- A cloud of one point. -/
def onePoint (stamp : Nat) (x : ℚ) : Cloud ℚ Unit :=
  ⟨stamp, "os_lidar", 1, 1, true, [⟨![some x, some 0, some 0], ![some 0, some 0, some 1], ![some 1, some 0, some 0], ⟨1, 0, 0, 1, 0, 1⟩, ()⟩]⟩

/-- A motion along the x axis. -/
def along (d : ℚ) : Iso ℚ := ⟨1, ![d, 0, 0]⟩

/-- A registration that adds one to the guess, and one more with the map. -/
def alongOps : DebugOps ℚ Unit Nat where
  s2s _ _ g := along (g.t 0 + 1)
  s2m _ _ g := along (g.t 0 + 1)
  normalsOk _ := true
  refined c _ _ := .ok c.stamp
  s2sCloud c _ _ := c
  s2mCloud c _ _ := c
  kind := .units
  default := ()
  frame := "lidar"

/-- Two scans and a map. -/
def alongEvents : List (RegEvent (Cloud ℚ Unit) (Iso ℚ)) :=
  [.scan (onePoint 10 0) (along 0), .scan (onePoint 20 5) (along 3), .map (onePoint 15 7), .take, .finish]

/-- With both options seven clouds are published, with the stamps of the first scan and of the map; the point at 5 is shown at
5 + 3 for the guess, at 5 + 4 after the first and at 5 + 5 after the second registration. -/
example : (debugRun ⟨true, true⟩ alongOps true alongEvents).debug.map (fun x => (x.1.name, x.2.stamp, x.2.frame, x.2.points.map fun p => p.pos 0)) =
    [("debug/current_pointcloud", 10, "lidar", [some 5]), ("debug/previous_pointcloud", 10, "lidar", [some 0]),
      ("debug/imu_guess_pointcloud", 10, "lidar", [some 8]), ("debug/s2s_transformed_pointcloud", 10, "lidar", [some 5]),
      ("debug/s2s_transformed_pointcloud_alt", 10, "lidar", [some 9]), ("debug/s2m_transformed_pointcloud", 15, "lidar", [some 5]),
      ("debug/s2m_transformed_pointcloud_alt", 15, "lidar", [some 10])] := by decide +kernel

example : (debugRun ⟨true, false⟩ alongOps false alongEvents).debug.map (fun x => (x.1.name, x.2.stamp)) =
    [("debug/current_pointcloud", 10), ("debug/previous_pointcloud", 10), ("debug/imu_guess_pointcloud", 10),
      ("debug/s2s_transformed_pointcloud", 10)] ∧
    (debugRun ⟨true, false⟩ alongOps false alongEvents).reg.published = [20] ∧
    (debugRun ⟨true, true⟩ alongOps true alongEvents).reg.published = [20] := by decide +kernel

end Lidar

end Serpent
