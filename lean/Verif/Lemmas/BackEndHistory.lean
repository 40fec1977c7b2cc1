import Verif.Lemmas.BackEndValued
import Verif.Lemmas.IsamLink
import Verif.Props.BackEnd

/-!
# The graph manager of the back-end node is reached by a history of calls

The theorems on histories of calls (`Model/IsamHistory.lean`) then apply to every run of the node.
-/

namespace Serpent

namespace BackEnd

open Graph M

variable {Val D O C I : Type}

/-- Nothing is claimed when a callback fails. -/
abbrev Free (Val D O : Type) : BE Val D O → Prop := fun _ => True

/-- The keys of the calls of `optimise`. -/
def optKeys : ILog Val D → List Int
  | [] => []
  | (.optimise k, _) :: log => k :: optKeys log
  | _ :: log => optKeys log

theorem optKeys_append (a b : ILog Val D) : optKeys (a ++ b) = optKeys a ++ optKeys b := by
  induction a with
  | nil => rfl
  | cons x a ih =>
    obtain ⟨op, r⟩ := x
    cases op <;> simp [optKeys, ih]

/-- The history `log` leads to the graph manager of `s`; `B` relates its stereo frames and the named keys, `F` describes
the window. -/
structure HistL (er : EndRead) (opt : OptApi Val D O) (o : O) (F : Bool → Nat → Prop) (B : List (Int × OMap Int D) → OMap String (Int × Nat) → Prop)
    (log : ILog Val D) (s : BE Val D (O × List (Event Val D))) : Prop where
  reach : IReaches er opt o log s.isam
  done : ∀ e ∈ log, e.2 = .done
  stereo : StereoOk (calls log).reverse
  bound : B (frames (calls log).reverse) s.isam.gm.keys
  seen : ∀ pre k r post, log = pre ++ (.optimise k, r) :: post → ∃ st, IReaches er opt o pre st ∧ (k, st.gm) ∈ s.calls ∧
    (∀ f ∈ frames (calls pre).reverse, ∃ e, st.gm.keys.find "stereo" = some e ∧ f.1 ≤ e.1) ∧
    F st.marginalisation st.window
  flag : F s.isam.marginalisation s.isam.window
  order : optKeys log = s.calls.map Prod.fst
  auto : ∀ k r, (IOp.marginalise k, r) ∉ log

def Hist (er : EndRead) (opt : OptApi Val D O) (o : O) (F : Bool → Nat → Prop) (B : List (Int × OMap Int D) → OMap String (Int × Nat) → Prop)
    (s : BE Val D (O × List (Event Val D))) : Prop := ∃ log, HistL er opt o F B log s

/-- The stereo frames are older than the named key by `d`. -/
def Bd (d : Int) (fs : List (Int × OMap Int D)) (ks : OMap String (Int × Nat)) : Prop :=
  ks.Sorted ∧ ∀ f ∈ fs, ∃ e, ks.find "stereo" = some e ∧ f.1 + d ≤ e.1

def Bk (k : Int) (fs : List (Int × OMap Int D)) (ks : OMap String (Int × Nat)) : Prop :=
  Bd 1 fs ks ∧ ∃ p, ks.find "stereo" = some (k, p)

def B0 (fs : List (Int × OMap Int D)) (ks : OMap String (Int × Nat)) : Prop := fs = [] ∧ ks.Sorted

variable {er : EndRead} {opt : OptApi Val D O} {o : O} {F : Bool → Nat → Prop} {B B' : List (Int × OMap Int D) → OMap String (Int × Nat) → Prop}

theorem split_last {α : Type} {l pre post : List α} {a x : α} (h : l ++ [a] = pre ++ x :: post) :
    (post = [] ∧ pre = l ∧ x = a) ∨ ∃ post', l = pre ++ x :: post' := by
  rcases List.eq_nil_or_concat post with rfl | ⟨post', b, rfl⟩
  · left
    have := List.append_inj' h rfl
    simp at this
    exact ⟨rfl, this.1.symm, this.2.symm⟩
  · right
    refine ⟨post', ?_⟩
    have h' : l ++ [a] = (pre ++ x :: post') ++ [b] := by rw [h]; simp
    exact (List.append_inj' h' rfl).1

theorem hist_call {op : Op Val D} {log : ILog Val D} {s : BE Val D (O × List (Event Val D))} (h : HistL er opt o F B log s)
    (hp : op.isPublic = true) {g' : GM Val D} (hs : step er op s.isam.gm = some (.done, g'))
    (hst : ∀ k l, op = .stereo k l → l.Sorted ∧ ∀ f ∈ frames (calls log).reverse, f.1 < k)
    (hB : B' (frames ((op, .done) :: (calls log).reverse)) g'.keys) :
    HistL er opt o F B' (log ++ [(.call op, .done)]) { s with isam := { s.isam with gm := g' } } := by
  have hc : (calls (log ++ [(IOp.call op, Resp.done)])).reverse = (op, .done) :: (calls log).reverse := by
    rw [calls_append]
    simp [calls]
  refine ⟨h.reach.step ?_, ?_, ?_, ?_, ?_, h.flag, ?_, ?_⟩
  · simp only [istep, hp, if_true, hs]
  · intro e he
    rcases List.mem_append.1 he with he | he
    · exact h.done e he
    · rw [List.mem_singleton] at he; subst he; rfl
  · rw [hc]
    cases op with
    | stereo k l => exact ⟨rfl, (hst k l rfl).1, (hst k l rfl).2, h.stereo⟩
    | _ => exact h.stereo
  · rw [hc]; exact hB
  · intro pre k r post e
    rcases split_last e with ⟨-, -, h3⟩ | ⟨post', h3⟩
    · cases h3
    · exact h.seen pre k r post' h3
  · rw [optKeys_append, h.order]
    simp [optKeys]
  · intro k r hm
    rcases List.mem_append.1 hm with hm | hm
    · exact h.auto k r hm
    · simp at hm

/-- A method that leaves frames and named keys alone. -/
theorem hOnG {m : M (GM Val D) Unit} (op : Op Val D) (hm : ∀ g, step er op g = respOf (fun _ => .done) (m g))
    (hp : op.isPublic = true) (hst : ∀ k l, op ≠ .stereo k l) (hk : ∀ n k p, op ≠ .setNamedKey n k p) (hi : ∀ n, op ≠ .increment n) :
    Triple (Hist er opt o F B) (onG m) (fun _ => Hist er opt o F B) (Free _ _ _) := by
  intro s ⟨log, h⟩
  simp only [onG, onIsam, onGm]
  rcases hr : m s.isam.gm with ⟨x, g'⟩
  cases x with
  | throws => trivial
  | ub => trivial
  | ok a =>
    have hs : step er op s.isam.gm = some (.done, g') := by rw [hm, hr]; rfl
    refine ⟨_, hist_call h hp hs (fun k l e => absurd e (hst k l)) ?_⟩
    have hkeys : g'.keys = s.isam.gm.keys :=
      step_keeps (P := fun g : GM Val D => g.keys = s.isam.gm.keys) hs rfl (fun n k p e => absurd e (hk n k p)) (fun n e => absurd e (hi n))
        (fun _ _ _ => rfl) (fun _ => rfl) (fun _ _ => rfl) (fun _ _ _ _ h => h) (fun _ _ _ h => h) (fun _ _ _ _ h => h)
    have hf : frames ((op, .done) :: (calls log).reverse) = frames (calls log).reverse := by
      cases op with
      | stereo k l => exact absurd rfl (hst k l)
      | _ => rfl
    rw [hkeys, hf]
    exact h.bound

theorem hInc (name : String)
    (hB : ∀ (fs : List (Int × OMap Int D)) ks k p, ks.find name = some (k, p) → B fs ks → B' fs (ks.assign name (k + 1, p))) :
    Triple (Hist er opt o F B) (onG (increment name)) (fun _ => Hist (Val := Val) er opt o F B') (Free _ _ _) := by
  intro s ⟨log, h⟩
  simp only [onG, onIsam, onGm]
  cases hf : s.isam.gm.keys.find name with
  | none => simp only [increment, hf]; trivial
  | some e =>
    obtain ⟨k, p⟩ := e
    have hr : increment name s.isam.gm = (.ok (), { s.isam.gm with keys := s.isam.gm.keys.assign name (k + 1, p) }) := by
      simp only [increment, hf]
    rw [hr]
    exact ⟨_, hist_call (op := .increment name) h rfl (by simp only [step, hr]; rfl) (fun k l e => by cases e) (hB _ _ _ _ hf h.bound)⟩

theorem bd_inc (name : String) (fs : List (Int × OMap Int D)) (ks : OMap String (Int × Nat)) (k : Int) (p : Nat)
    (hf : ks.find name = some (k, p)) (h : Bd 0 fs ks) : Bd 0 fs (ks.assign name (k + 1, p)) := by
  refine ⟨OMap.sorted_assign h.1 _ _, fun f hm => ?_⟩
  obtain ⟨e, he, hle⟩ := h.2 f hm
  rw [OMap.find_assign h.1]
  split
  · rename_i hn
    subst hn
    rw [hf] at he
    cases he
    exact ⟨_, rfl, by simp only at hle ⊢; omega⟩
  · exact ⟨e, he, hle⟩

theorem bd_incStereo (fs : List (Int × OMap Int D)) (ks : OMap String (Int × Nat)) (k : Int) (p : Nat)
    (hf : ks.find "stereo" = some (k, p)) (h : Bd 0 fs ks) : Bd 1 fs (ks.assign "stereo" (k + 1, p)) := by
  refine ⟨OMap.sorted_assign h.1 _ _, fun f hm => ?_⟩
  rw [OMap.find_assign h.1, if_pos rfl]
  obtain ⟨e, he, hle⟩ := h.2 f hm
  rw [hf] at he
  cases he
  exact ⟨_, rfl, by simp only at hle ⊢; omega⟩

theorem hNamed (name : String) (k : Int) (p : Nat) :
    Triple (Hist er opt o F B0) (onG (setNamedKey name k p)) (fun _ => Hist (Val := Val) (D := D) er opt o F B0) (Free _ _ _) := by
  intro s ⟨log, h⟩
  simp only [onG, onIsam, onGm]
  refine ⟨_, hist_call (op := .setNamedKey name k p) h rfl rfl (fun k l e => by cases e) ⟨h.bound.1, ?_⟩⟩
  simp only [setNamedKey, modify_run]
  split
  · exact OMap.sorted_emplace h.bound.2 _ _
  · exact OMap.sorted_assign h.bound.2 _ _

theorem hRead {α : Type} {f : GM Val D → Outcome α} : Triple (Hist er opt o F B) (read f) (fun _ => Hist er opt o F B) (Free _ _ _) :=
  (Triple.of_keeps (keeps_read f)).conseq (fun _ h => h) (fun _ _ h => h) fun _ _ => trivial

theorem hKeeps {α : Type} {m : M (BE Val D (O × List (Event Val D))) α} (h : Keeps (Hist er opt o F B) m) :
    Triple (Hist er opt o F B) m (fun _ => Hist er opt o F B) (Free _ _ _) :=
  (Triple.of_keeps h).conseq (fun _ h => h) (fun _ _ h => h) fun _ _ => trivial

theorem hThrow {α : Type} {P : BE Val D O → Prop} {Q : α → BE Val D O → Prop} :
    Triple P (M.throw : M (BE Val D O) α) Q (Free _ _ _) := Triple.throw fun _ _ => trivial

theorem hist_pub : IndepPub (Hist (Val := Val) er opt o F B) := fun _ _ ⟨log, h⟩ => ⟨log, h.reach, h.done, h.stereo, h.bound, h.seen, h.flag, h.order, h.auto⟩

theorem hOptimise {api : Api Val D (O × List (Event Val D)) C I} (ha : api.opt = recording opt) (k : Int) :
    Triple (Hist er opt o F (Bd 0)) (optimiseB er api k) (fun _ => Hist er opt o F (Bd 0)) (Free _ _ _) := by
  intro s ⟨log, h⟩
  obtain ⟨glog, hl⟩ := link_exists h.reach
  have hg := keeps_grow_optimise s.isam.gm er api.opt k s.isam (Grow.refl (reaches_vinv hl.reaches))
  simp only [optimiseB, modify_bind]
  rw [bind_run]
  simp only [onIsam]
  rcases hr : optimise er api.opt k s.isam with ⟨x, i'⟩
  rw [hr] at hg
  cases x with
  | throws => trivial
  | ub => trivial
  | ok a =>
    simp only
    rw [bind_run]
    simp only [read]
    cases ht : timestamp i'.gm k with
    | throws => trivial
    | ub => trivial
    | ok t =>
      have hc : calls (log ++ [(IOp.optimise k, Resp.done)]) = calls log := by
        rw [calls_append]
        simp [calls]
      have hstep : istep er opt (.optimise k) s.isam = some (.done, i') := by
        simp only [istep]
        rw [ha] at hr
        rw [hr]
        rfl
      refine ⟨log ++ [(.optimise k, .done)], h.reach.step hstep, ?_, ?_, ?_, ?_, ?_, ?_, ?_⟩
      · intro e he
        rcases List.mem_append.1 he with he | he
        · exact h.done e he
        · rw [List.mem_singleton] at he; subst he; rfl
      · rw [hc]; exact h.stereo
      · rw [hc]
        show Bd 0 _ i'.gm.keys
        rw [hg.keys]
        exact h.bound
      · intro pre k' r post e
        rcases split_last e with ⟨-, h2, h3⟩ | ⟨post', h3⟩
        · cases h3
          subst h2
          exact ⟨s.isam, h.reach, List.mem_append_right _ List.mem_cons_self, fun f hf => by simpa using h.bound.2 f hf, h.flag⟩
        · obtain ⟨st, h4, h5, h6⟩ := h.seen pre k' r post' h3
          exact ⟨st, h4, List.mem_append_left _ h5, h6⟩
      · obtain ⟨seg, ev, hm⟩ := optRun_of_step hstep
        cases hm <;> exact h.flag
      · rw [optKeys_append, h.order]
        simp [optKeys]
      · intro k r hm
        rcases List.mem_append.1 hm with hm | hm
        · exact h.auto k r hm
        · simp at hm

variable {api : Api Val D (O × List (Event Val D)) C I}

theorem hSetPose (k : Int) (v : Val) : Triple (Hist er opt o F B) (onG (setPose k v)) (fun _ => Hist (D := D) er opt o F B) (Free _ _ _) :=
  hOnG (.setPose k v) (fun _ => rfl) rfl nofun nofun nofun
theorem hSetVelocity (k : Int) (v : Val) : Triple (Hist er opt o F B) (onG (setVelocity k v)) (fun _ => Hist (D := D) er opt o F B) (Free _ _ _) :=
  hOnG (.setVelocity k v) (fun _ => rfl) rfl nofun nofun nofun
theorem hSetImuBias (k : Int) (v : Val) : Triple (Hist er opt o F B) (onG (setImuBias k v)) (fun _ => Hist (D := D) er opt o F B) (Free _ _ _) :=
  hOnG (.setImuBias k v) (fun _ => rfl) rfl nofun nofun nofun
theorem hSetBaro (k : Int) (v : Val) : Triple (Hist er opt o F B) (onG (setBarometerBias k v)) (fun _ => Hist (D := D) er opt o F B) (Free _ _ _) :=
  hOnG (.setBarometerBias k v) (fun _ => rfl) rfl nofun nofun nofun
theorem hSetNav (k : Int) (p v : Val) : Triple (Hist er opt o F B) (onG (setNavstate k p v)) (fun _ => Hist (D := D) er opt o F B) (Free _ _ _) :=
  hOnG (.setNavstate k p v) (fun _ => rfl) rfl nofun nofun nofun
theorem hTime (k t : Int) : Triple (Hist er opt o F B) (onG (setTimestamp k t)) (fun _ => Hist (Val := Val) (D := D) er opt o F B) (Free _ _ _) :=
  hOnG (.setTimestamp k t) (fun _ => rfl) rfl nofun nofun nofun
theorem hCreate (q : PlainKind) (k : Int) (d : D) :
    Triple (Hist er opt o F B) (onG (createFactor q k d)) (fun _ => Hist (Val := Val) er opt o F B) (Free _ _ _) :=
  hOnG (.create q k d) (fun _ => rfl) rfl nofun nofun nofun
theorem hExtrinsic : Triple (Hist er opt o F B) (onG setExtrinsic) (fun _ => Hist (Val := Val) (D := D) er opt o F B) (Free _ _ _) :=
  hOnG .setExtrinsic (fun _ => rfl) rfl nofun nofun nofun
theorem hCalib (bp : Val → D → Val) : Triple (Hist er opt o F B) (onG (setCalibration bp)) (fun _ => Hist er opt o F B) (Free _ _ _) :=
  hOnG (.setCalibration bp) (fun _ => rfl) rfl nofun nofun nofun

theorem hPublish (cfg : Cfg) (k : Int) : Triple (Hist er opt o F B) (publish api cfg k) (fun _ => Hist er opt o F B) (Free _ _ _) :=
  hKeeps (keeps_publish hist_pub api cfg k)

theorem hBoth (ha : api.opt = recording opt) (cfg : Cfg) (k : Int) :
    Triple (Hist er opt o F (Bd 0)) (optimiseAndPublish er api cfg k) (fun _ => Hist er opt o F (Bd 0)) (Free _ _ _) :=
  Triple.bind (hOptimise ha k) fun _ => hPublish cfg k

theorem hVelocity (name : String) : Triple (Hist er opt o F B) (updateVelocity api name) (fun _ => Hist er opt o F B) (Free _ _ _) := by
  unfold updateVelocity
  exact Triple.bind hRead fun _ => Triple.bind hRead fun _ => Triple.bind hRead fun _ => Triple.bind hRead fun _ =>
    Triple.bind hRead fun _ => hSetVelocity _ _

theorem hSkip {P : BE Val D O → Prop} : Triple P (pure () : M (BE Val D O) Unit) (fun _ => P) (Free _ _ _) := Triple.pure fun _ h => h

/-! ### Sections -/

abbrev Hd (er : EndRead) (opt : OptApi Val D O) (o : O) (F : Bool → Nat → Prop) : BE Val D (O × List (Event Val D)) → Prop := Hist er opt o F (Bd 0)

theorem hRegistration (ha : api.opt = recording opt) (cfg : Cfg) (msg : RegMsg D C) :
    Triple (Hd er opt o F) (registrationBody er api cfg msg) (fun _ => Hd er opt o F) (Free _ _ _) := by
  unfold registrationBody addRegistrationFactor
  refine Triple.bind (Q := fun _ => Hd er opt o F) ?_ fun _ => ?_
  · refine Triple.bind (hInc _ (bd_inc _)) fun _ => Triple.bind hRead fun k => Triple.bind hRead fun t => ?_
    refine Triple.ite (fun _ => hThrow) fun _ => Triple.ite (fun _ => hThrow) fun _ => Triple.ite (fun _ => hThrow) fun _ => ?_
    exact Triple.bind hRead fun k1 => Triple.bind hRead fun p => Triple.bind (hSetPose _ _) fun _ => hCreate _ _ _
  · refine Triple.bind hRead fun k => Triple.bind hRead fun m => Triple.ite (fun _ => ?_) fun _ => hSkip
    exact Triple.bind (hOptimise ha _) fun _ => Triple.bind (tBranch (fun _ => hSkip) fun _ => hVelocity _) fun _ => hPublish _ _

theorem hInitial (ha : api.opt = recording opt) (cfg : Cfg) (msg : OdomMsg Val C) :
    Triple (Hd er opt o F) (initialBody er api cfg msg) (fun _ => Hd er opt o F) (Free _ _ _) := by
  unfold initialBody
  refine Triple.bind (hSetImuBias _ _) fun _ => Triple.bind (hSetPose _ _) fun _ => Triple.bind (hTime _ _) fun _ =>
    Triple.bind (hSetVelocity _ _) fun _ => Triple.ite (fun _ => hThrow) fun _ => Triple.bind hRead fun p =>
    Triple.bind (hCreate _ _ _) fun _ => ?_
  refine Triple.bind (Q := fun _ => Hd er opt o F) (tBranch (fun _ => ?_) fun _ => hSkip) fun _ => ?_
  · refine Triple.ite (fun _ => hThrow) fun _ => Triple.bind hRead fun v => Triple.bind (hCreate _ _ _) fun _ => ?_
    exact Triple.ite (fun _ => hThrow) fun _ => Triple.ite (fun _ => hThrow) fun _ => Triple.bind hRead fun b => hCreate _ _ _
  · exact Triple.bind (hKeeps (keeps_emit hist_pub _)) fun _ => hBoth ha cfg 0

theorem hImu (ha : api.opt = recording opt) (cfg : Cfg) (msg : ImuMsg I) :
    Triple (Hd er opt o F) (imuBody er api cfg msg) (fun _ => Hd er opt o F) (Free _ _ _) := by
  unfold imuBody
  refine Triple.bind hRead fun k0 => Triple.bind hRead fun b0 => Triple.bind (hKeeps (Keeps.lift _)) fun pre => ?_
  refine Triple.bind (hInc _ (bd_inc _)) fun _ => Triple.bind hRead fun k1 => Triple.bind hRead fun b1 => Triple.bind hRead fun k => ?_
  refine Triple.bind (hSetImuBias _ _) fun _ => Triple.bind hRead fun nav => Triple.bind hRead fun b2 => ?_
  refine Triple.bind (hSetNav _ _ _) fun _ => Triple.bind (hTime _ _) fun _ => Triple.bind hRead fun p => ?_
  refine Triple.ite (fun _ => hThrow) fun _ => Triple.bind hRead fun v => Triple.ite (fun _ => hThrow) fun _ => ?_
  refine Triple.bind hRead fun p1 => Triple.bind hRead fun t => Triple.bind (hKeeps (keeps_emit hist_pub _)) fun _ => ?_
  refine Triple.ite (fun _ => ?_) fun _ => hSkip
  exact Triple.bind (hCreate _ _ _) fun _ => Triple.bind hRead fun m => Triple.ite (fun _ => hBoth ha cfg _) fun _ => hSkip

theorem fromRos_sorted {fs : List Feature} {m : OMap Int StereoPoint} (h : fromRos fs = .ok m) : m.Sorted :=
  ((fromRosLoop_spec fs [] List.Pairwise.nil).1 m h).1

theorem hAddStereo (msg : StereoMsg) : Triple (Hd er opt o F) (addStereoFactors api msg) (fun _ => Hd er opt o F) (Free _ _ _) := by
  unfold addStereoFactors
  refine Triple.bind (hInc _ bd_incStereo) fun _ => ?_
  refine Triple.bind (Q := fun k => Hist er opt o F (Bk k)) ?_ fun k => ?_
  · intro s ⟨log, h⟩
    simp only [read]
    cases hk : key s.isam.gm "stereo" 0 with
    | throws => trivial
    | ub => trivial
    | ok k =>
      refine ⟨log, h.reach, h.done, h.stereo, ⟨h.bound, ?_⟩, h.seen, h.flag, h.order, h.auto⟩
      unfold key at hk
      split at hk
      · rename_i k' p hf
        cases hk
        exact ⟨p, by rw [hf, add_zero]⟩
      · cases hk
  refine Triple.bind hRead fun t => Triple.ite (fun _ => hThrow) fun _ => Triple.bind (hKeeps Keeps.get) fun s => ?_
  refine Triple.bind (Q := fun _ => Hist er opt o F (Bk k))
    (tBranch (fun _ => tBranch (fun _ => hThrow) fun _ => hCalib _) fun _ => hSkip) fun _ => ?_
  refine Triple.bind (Q := fun fs s => OMap.Sorted fs ∧ Hist er opt o F (Bk k) s) ?_ fun fs => Triple.pure_pre fun hsort => ?_
  · intro s h
    simp only [lift_run]
    cases hf : fromRos msg.features with
    | throws => trivial
    | ub => trivial
    | ok fs => exact ⟨fromRos_sorted hf, h⟩
  · have hl : OMap.Sorted (fs.map fun e => (e.1, api.obs e.2)) := by
      unfold OMap.Sorted at hsort ⊢
      exact List.pairwise_map.2 hsort
    generalize List.map (fun e => (e.1, api.obs e.2)) fs = l at hl
    intro s ⟨log, h⟩
    obtain ⟨hb, p, hp⟩ := h.bound
    simp only [onG, onIsam, onGm]
    rcases hr : createStereo k l s.isam.gm with ⟨x, g'⟩
    cases x with
    | throws => trivial
    | ub => trivial
    | ok a =>
      have hs : step er (.stereo k l) s.isam.gm = some (.done, g') := by
        simp only [step, hr]
        rfl
      have hkeys : g'.keys = s.isam.gm.keys :=
        step_keeps (P := fun g : GM Val D => g.keys = s.isam.gm.keys) hs rfl nofun nofun
          (fun _ _ _ => rfl) (fun _ => rfl) (fun _ _ => rfl) (fun _ _ _ _ h => h) (fun _ _ _ h => h) (fun _ _ _ _ h => h)
      refine ⟨_, hist_call h rfl hs ?_ ⟨by rw [hkeys]; exact hb.1, ?_⟩⟩
      · intro k' l e
        cases e
        refine ⟨hl, fun f hf => ?_⟩
        obtain ⟨e, he, hle⟩ := hb.2 f hf
        rw [hp] at he
        cases he
        simp only at hle
        omega
      · intro f hf
        rw [hkeys]
        refine ⟨_, hp, ?_⟩
        rcases List.mem_cons.1 hf with rfl | hf
        · simp
        · obtain ⟨e, he, hle⟩ := hb.2 f hf
          rw [hp] at he
          cases he
          simp only at hle ⊢
          omega

theorem hStereo (ha : api.opt = recording opt) (cfg : Cfg) (msg : StereoMsg) :
    Triple (Hd er opt o F) (stereoIter er api cfg msg) (fun _ => Hd er opt o F) (Free _ _ _) := by
  unfold stereoIter
  refine Triple.bind hRead fun k1 => Triple.bind hRead fun t => Triple.ite (fun _ => ?_) fun _ => Triple.pure fun _ h => h
  refine Triple.bind (Q := fun _ => Hd er opt o F) (tBranch (fun _ => hAddStereo msg) fun _ => hInc _ (bd_inc _)) fun _ => ?_
  refine Triple.bind hRead fun m => Triple.bind hRead fun k => ?_
  refine Triple.bind (Q := fun _ => Hd er opt o F) (tBranch (fun _ => ?_) fun _ => hSkip) fun _ => Triple.pure fun _ h => h
  exact Triple.bind (hBoth ha cfg _) fun _ => tBranch (fun _ => hSkip) fun _ => hVelocity _

theorem hBaroAdvance (stamp : Int) (n : Nat) :
    Triple (Hd er opt o F) (baroAdvance stamp n) (fun _ => Hd (Val := Val) (D := D) er opt o F) (Free _ _ _) := by
  induction n with
  | zero => exact hSkip
  | succ n ih =>
    unfold baroAdvance
    refine Triple.bind hRead fun k => Triple.bind hRead fun hp => Triple.ite (fun _ => ?_) fun _ => hSkip
    refine Triple.bind hRead fun t => Triple.ite (fun _ => ?_) fun _ => hSkip
    exact Triple.bind (hInc _ (bd_inc _)) fun _ => ih

theorem hBaroWait (stamp : Int) : Triple (Hd er opt o F) (baroWait stamp) (fun _ => Hd (Val := Val) (D := D) er opt o F) (Free _ _ _) := by
  unfold baroWait
  refine Triple.bind (hKeeps Keeps.get) fun s => Triple.bind (hBaroAdvance _ _) fun _ => Triple.bind hRead fun k => ?_
  refine Triple.bind hRead fun hp => Triple.ite (fun _ => ?_) fun _ => Triple.pure fun _ h => h
  exact Triple.bind hRead fun t => Triple.pure fun _ h => h

theorem hBaroLoop (n : Nat) (k : Int) : Triple (Hd er opt o F) (baroBiasLoop api n k) (fun _ => Hd er opt o F) (Free _ _ _) := by
  induction n generalizing k with
  | zero => exact hSkip
  | succ n ih =>
    unfold baroBiasLoop
    exact Triple.bind (hCreate _ _ _) fun _ => Triple.bind hRead fun b => Triple.bind (hSetBaro _ _) fun _ => ih _

theorem hBaro (cfg : Cfg) (next : Int) (msg : BaroMsg) :
    Triple (Hd er opt o F) (baroBody api cfg next msg) (fun _ => Hd er opt o F) (Free _ _ _) := by
  unfold baroBody
  refine Triple.bind hRead fun k => Triple.bind hRead fun t => Triple.ite (fun _ => hThrow) fun _ => Triple.ite (fun _ => hThrow) fun _ => ?_
  refine Triple.bind (hCreate _ _ _) fun _ => ?_
  refine Triple.bind (Q := fun _ => Hd er opt o F) (tBranch (fun _ => ?_) fun _ => hSkip) fun _ => ?_
  · exact Triple.bind (hSetBaro _ _) fun _ => tBranch (fun _ => hThrow) fun _ => hCreate _ _ _
  · exact Triple.bind (hBaroLoop _ _) fun _ => hInc _ (bd_inc _)

/-- Nothing is said about the window. -/
def Any : Bool → Nat → Prop := fun _ _ => True

/-- The window of the configuration. -/
def Window (cfg : Cfg) (b : Bool) (w : Nat) : Prop :=
  match cfg.marginalisation with
  | none => b = false
  | some v => b = true ∧ (w : Int) = v

set_option linter.unusedSimpArgs false in
theorem construct_window {cfg : Cfg} {o : O} {b : BE Val D O} (h : initSys cfg o = (.ok (), b)) :
    Window cfg b.isam.marginalisation b.isam.window := by
  unfold initSys construct at h
  unfold Window
  obtain ⟨imu, reg, stereo, baro, n1, n2, n3, n4, w, pre, mf⟩ := cfg
  cases reg <;> cases stereo <;> cases baro <;> by_cases hn : n1 = 0 <;> cases w <;>
   simp [branch, bind_run, onG, onIsam, onGm, setNamedKey, setExtrinsic, hn, setMarginalisation] at h ⊢ <;> (try split at h) <;> (try simp only [onIsam, modify_run, Prod.mk.injEq, true_and] at h) <;> (try simp only [M.throw, Prod.mk.injEq, reduceCtorEq, false_and] at h) <;> subst h <;> simp <;> omega

theorem hConstruct (cfg : Cfg) : Triple (Hist er opt o Any B0) (construct cfg) (fun _ => Hist (Val := Val) (D := D) er opt o Any B0) (Free _ _ _) := by
  unfold construct
  refine Triple.bind (hNamed _ _ _) fun _ => Triple.bind (Q := fun _ => Hist er opt o Any B0) (tBranch (fun _ => hNamed _ _ _) fun _ => hSkip) fun _ => ?_
  refine Triple.bind (Q := fun _ => Hist er opt o Any B0) (tBranch (fun _ => Triple.bind (hNamed _ _ _) fun _ => hExtrinsic) fun _ => hSkip) fun _ => ?_
  refine Triple.bind (Q := fun _ => Hist er opt o Any B0) (tBranch (fun _ => Triple.bind (hNamed _ _ _) fun _ =>
    tBranch (fun _ => hThrow) fun _ => hSkip) fun _ => hSkip) fun _ => ?_
  split
  · exact hSkip
  · rename_i w _
    refine Triple.ite (fun _ => hThrow) fun _ => ?_
    intro s ⟨log, h⟩
    simp only [onIsam, setMarginalisation, modify_run]
    have hc : calls (log ++ [(IOp.setMarginalisation true w.toNat, Resp.done)]) = calls log := by
      rw [calls_append]
      simp [calls]
    refine ⟨log ++ [(.setMarginalisation true w.toNat, .done)], h.reach.step rfl, ?_, by rw [hc]; exact h.stereo, by rw [hc]; exact h.bound, ?_, trivial, ?_, ?_⟩
    · intro e he
      rcases List.mem_append.1 he with he | he
      · exact h.done e he
      · rw [List.mem_singleton] at he; subst he; rfl
    · intro pre k r post e
      rcases split_last e with ⟨-, -, h3⟩ | ⟨post', h3⟩
      · cases h3
      · exact h.seen pre k r post' h3
    · rw [optKeys_append, h.order]
      simp [optKeys]
    · intro k r hm
      rcases List.mem_append.1 hm with hm | hm
      · exact h.auto k r hm
      · simp at hm

theorem hGuarded {m : M (BE Val D (O × List (Event Val D))) Unit} (h : Triple (Hd er opt o F) m (fun _ => Hd er opt o F) (Free _ _ _)) :
    Triple (Hd er opt o F) (guarded m) (fun _ => Hd er opt o F) (Free _ _ _) := by
  intro s ⟨log, hs⟩
  have h1 := h { s with locked := true } ⟨log, hs.reach, hs.done, hs.stereo, hs.bound, hs.seen, hs.flag, hs.order, hs.auto⟩
  unfold guarded
  rcases hr : m { s with locked := true } with ⟨x, b⟩
  rw [hr] at h1
  cases x with
  | ok a =>
    obtain ⟨log', h'⟩ := h1
    exact ⟨log', h'.reach, h'.done, h'.stereo, h'.bound, h'.seen, h'.flag, h'.order, h'.auto⟩
  | throws => trivial
  | ub => trivial

theorem sect_hist {α : Type} {m : M (BE Val D O) α} {f : Sys Val D O → Sys Val D O} {s s' : Sys Val D O} {P : BE Val D O → Prop}
    (ht : Triple P m (fun _ => P) (Free _ _ _)) (hp : P s.be) (hf : ∀ s, (f s).be = s.be) (h : sect m f s = some (.ok (), s')) : P s'.be := by
  have := ht s.be hp
  unfold sect at h
  rcases hr : m s.be with ⟨x, b⟩
  rw [hr] at this h
  cases x with
  | ok a =>
    simp only [Option.some.injEq, Prod.mk.injEq] at h
    rw [← h.2, hf]
    exact this
  | throws => simp at h
  | ub => simp at h

theorem sectAfter_hist {α : Type} {wait : M (BE Val D O) Bool} {m : M (BE Val D O) α} {f : Sys Val D O → Sys Val D O}
    {s s' : Sys Val D O} {P : BE Val D O → Prop} (hw : Triple P wait (fun _ => P) (Free _ _ _))
    (ht : Triple P m (fun _ => P) (Free _ _ _)) (hp : P s.be) (hf : ∀ s, (f s).be = s.be)
    (h : sectAfter wait m f s = some (.ok (), s')) : P s'.be := by
  have := hw s.be hp
  unfold sectAfter at h
  rcases hr : wait s.be with ⟨x, b⟩
  rw [hr] at this h
  cases x with
  | ok w =>
    cases w with
    | true => simp at h
    | false => exact sect_hist ht (s := { s with be := b }) this hf h
  | throws => simp at h
  | ub => simp at h

theorem hist_reach (ha : api.opt = recording opt) {cfg : Cfg} {s : Sys Val D (O × List (Event Val D))}
    (h : NodeReach er api cfg (o, []) s) : Hd er opt o (Window cfg) s.be := by
  induction h with
  | @init b hi =>
    have h0 : Hist (Val := Val) (D := D) er opt o Any B0 { isam := { opt := (o, []) } } :=
      ⟨[], .init, by simp, trivial, ⟨rfl, List.Pairwise.nil⟩, fun pre k r post e => by simp at e, trivial, rfl, by simp⟩
    obtain ⟨log, h1⟩ := (hConstruct cfg).ok h0 hi
    exact ⟨log, h1.reach, h1.done, h1.stereo, ⟨h1.bound.2, by rw [h1.bound.1]; simp⟩, fun pre k r post e => by
      obtain ⟨st, -, hm, -⟩ := h1.seen pre k r post e
      rw [(construct_ok hi).2.2] at hm
      simp at hm, construct_window hi, h1.order, h1.auto⟩
  | @step s s' ev hr h ih =>
    cases ev with
    | initial msg =>
      simp only [nodeStep] at h
      split at h
      · cases h
      · exact sect_hist (f := fun s => { s with started := true }) (hGuarded (hInitial ha cfg msg)) ih (fun _ => rfl) h
    | imu msg =>
      simp only [nodeStep] at h
      split at h
      · simp at h
      · exact sectAfter_hist (hKeeps (Keeps.bind keeps_imuWarn fun _ => keeps_imuWait)) (hImu ha cfg msg) ih (fun _ => rfl) h
    | reg msg =>
      simp only [nodeStep] at h
      split at h
      · exact sect_hist (hGuarded (hRegistration ha cfg msg)) ih (fun _ => rfl) h
      · cases h
    | stereo msg =>
      simp only [nodeStep] at h
      split at h
      · exact sectAfter_hist (hKeeps keeps_stereoWait) (hStereo ha cfg msg) ih (fun _ => rfl) h
      · cases h
    | baroStart =>
      simp only [nodeStep] at h
      split at h
      · split at h
        all_goals first
          | (cases h; done)
          | (simp at h; done)
          | (simp only [Option.some.injEq, Prod.mk.injEq] at h; obtain ⟨-, rfl⟩ := h; exact ih)
      · cases h
    | baroPoll stamp =>
      simp only [nodeStep] at h
      split at h
      · exact sect_hist (hBaroWait stamp) ih (fun _ => rfl) h
      · cases h
    | baroFinish msg =>
      simp only [nodeStep] at h
      split at h
      · cases h
      · exact sectAfter_hist (f := fun s => { s with baro := none }) (hBaroWait msg.stamp) (hBaro cfg _ msg) ih (fun _ => rfl) h

end BackEnd

end Serpent
