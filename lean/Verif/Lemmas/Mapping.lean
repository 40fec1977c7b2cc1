import Verif.Model.Mapping
import Verif.Spec.Mapping
import Verif.Basic.Keeps
import Mathlib.Data.List.Nodup
import Mathlib.Data.List.Forall2
import Mathlib.Data.List.Perm.Basic

/-!
# Lemmas about the mapping node
-/

namespace Serpent

namespace Mapping

variable {P V X : Type} (O : Ops P V X)

/-- The containers agree. -/
structure Inv (s : St P V X) : Prop where
  sorted : OMap.Sorted s.map
  stamp : ∀ t f, OMap.find s.map t = some f → f.stamp = t ∧ f.cloud.stamp = t
  indices : OMap.Sorted s.indices
  timestamps : OMap.Sorted s.timestamps
  indexed : ∀ pc, s.poseCloud = some pc → ∀ t, (OMap.find s.indices t).isSome = (OMap.find s.map t).isSome
  point : ∀ pc, s.poseCloud = some pc → ∀ t i f, OMap.find s.indices t = some i → OMap.find s.map t = some f →
    pc[i]? = some (O.point f.pose)
  stamped : ∀ pc, s.poseCloud = some pc → ∀ i, (OMap.find s.timestamps i).isSome ↔ i < pc.length
  known : ∀ pc, s.poseCloud = some pc → ∀ i t, OMap.find s.timestamps i = some t → (OMap.find s.map t).isSome
  back : ∀ pc, s.poseCloud = some pc → ∀ t i, OMap.find s.indices t = some i → OMap.find s.timestamps i = some t

/-- No frame has two points in the pose cloud. -/
def Single (s : St P V X) : Prop :=
  ∀ pc, s.poseCloud = some pc → ∀ i t, OMap.find s.timestamps i = some t → OMap.find s.indices t = some i

/-- What is published does not change. -/
def Quiet (s s' : St P V X) : Prop := s'.locals = s.locals ∧ s'.globals = s.globals ∧ s'.graphs = s.graphs

theorem Quiet.refl (s : St P V X) : Quiet s s := ⟨rfl, rfl, rfl⟩
theorem Quiet.trans {s s' s'' : St P V X} (h : Quiet s s') (h' : Quiet s' s'') : Quiet s s'' :=
  ⟨h'.1.trans h.1, h'.2.1.trans h.2.1, h'.2.2.trans h.2.2⟩

theorem addToMap_spec {s : St P V X} (hs : Inv O s) (pose : P) (cloud : Cloud X) :
    ∃ s', addToMap O pose cloud.stamp cloud s = (.ok (), s') ∧ Inv O s' ∧
      (OMap.find s.map cloud.stamp = none → Single s → Single s') ∧ Quiet s s' ∧
      s'.poseCloud.isSome = s.poseCloud.isSome ∧
      ∀ k, OMap.find s'.map k = if k = cloud.stamp then some ((OMap.find s.map k).getD ⟨pose, cloud.stamp, cloud⟩)
        else OMap.find s.map k := by
  have hmap : ∀ k, OMap.find (OMap.emplace s.map cloud.stamp (⟨pose, cloud.stamp, cloud⟩ : Frame P X)) k =
      if k = cloud.stamp then some ((OMap.find s.map k).getD ⟨pose, cloud.stamp, cloud⟩) else OMap.find s.map k := by
    intro k
    rw [OMap.find_emplace hs.sorted]
    split
    · rename_i h; subst h; rfl
    · rfl
  have hst : ∀ t f, OMap.find (OMap.emplace s.map cloud.stamp (⟨pose, cloud.stamp, cloud⟩ : Frame P X)) t = some f →
      f.stamp = t ∧ f.cloud.stamp = t := by
    intro t f hf
    rw [hmap] at hf
    split at hf
    · rename_i h
      subst h
      cases ho : OMap.find s.map cloud.stamp with
      | none => rw [ho] at hf; cases hf; exact ⟨rfl, rfl⟩
      | some g => rw [ho] at hf; cases hf; exact hs.stamp _ _ ho
    · exact hs.stamp _ _ hf
  cases hpc : s.poseCloud with
  | none =>
    refine ⟨_, rfl, ?_, ?_, ?_, ?_, ?_⟩
    all_goals simp only [hpc]
    · exact ⟨OMap.sorted_emplace hs.sorted _ _, hst, hs.indices, hs.timestamps,
        by intro pc h; simp at h, by intro pc h; simp at h, by intro pc h; simp at h,
        by intro pc h; simp at h, by intro pc h; simp at h⟩
    · intro _ _ pc h; simp at h
    · exact ⟨rfl, rfl, rfl⟩
    · exact hmap
  | some pc =>
    have hnew : OMap.find s.timestamps pc.length = none := by
      cases h : OMap.find s.timestamps pc.length with
      | none => rfl
      | some t => exact absurd ((hs.stamped pc hpc pc.length).1 (by rw [h]; rfl)) (Nat.lt_irrefl _)
    have hi : ∀ t i, OMap.find s.indices t = some i → i < pc.length := fun t i h =>
      (hs.stamped pc hpc i).1 (by rw [hs.back pc hpc t i h]; rfl)
    refine ⟨_, rfl, ?_, ?_, ?_, ?_, ?_⟩
    all_goals simp only [hpc]
    · refine ⟨OMap.sorted_emplace hs.sorted _ _, hst, OMap.sorted_emplace hs.indices _ _,
        OMap.sorted_emplace hs.timestamps _ _, ?_, ?_, ?_, ?_, ?_⟩
      · intro _ _ t
        dsimp only
        rw [hmap, OMap.find_emplace hs.indices]
        split
        · rename_i h; simp
        · exact hs.indexed pc hpc t
      · intro _ e t i f h h'
        cases e
        dsimp only at h h'
        rw [hmap] at h'
        rw [OMap.find_emplace hs.indices] at h
        split at h
        · rename_i ht
          subst ht
          rw [if_pos rfl] at h'
          cases ho : OMap.find s.map cloud.stamp with
          | none =>
            have : OMap.find s.indices cloud.stamp = none := by
              have := hs.indexed pc hpc cloud.stamp
              rw [ho] at this
              cases h2 : OMap.find s.indices cloud.stamp with
              | none => rfl
              | some _ => rw [h2] at this; cases this
            rw [ho] at h'
            rw [this] at h
            cases h; cases h'
            simp
          | some g =>
            have h2 := hs.indexed pc hpc cloud.stamp
            rw [ho] at h'
            rw [ho] at h2
            cases h3 : OMap.find s.indices cloud.stamp with
            | none => rw [h3] at h2; cases h2
            | some j =>
              rw [h3] at h
              cases h; cases h'
              rw [Option.getD_some, List.getElem?_append_left (hi _ _ h3)]
              exact hs.point pc hpc _ _ _ h3 ho
        · rename_i ht
          rw [if_neg ht] at h'
          rw [List.getElem?_append_left (hi _ _ h)]
          exact hs.point pc hpc _ _ _ h h'
      · intro _ e i
        cases e
        dsimp only
        rw [OMap.find_emplace hs.timestamps]
        split
        · rename_i h; subst h; simp
        · rename_i h
          rw [hs.stamped pc hpc i]
          simp only [List.length_append, List.length_cons, List.length_nil]
          omega
      · intro _ e i t h
        cases e
        dsimp only at h ⊢
        rw [OMap.find_emplace hs.timestamps] at h
        rw [hmap]
        split
        · rfl
        · rename_i ht
          split at h
          · rename_i h2
            rw [hnew] at h
            cases h
            exact absurd rfl ht
          · exact hs.known pc hpc i t h
      · intro _ e t i h
        cases e
        dsimp only at h ⊢
        rw [OMap.find_emplace hs.indices] at h
        rw [OMap.find_emplace hs.timestamps]
        split at h
        · rename_i ht
          subst ht
          cases h2 : OMap.find s.indices cloud.stamp with
          | none => rw [h2] at h; cases h; rw [Option.getD_none, if_pos rfl, hnew]; rfl
          | some j =>
            rw [h2] at h; cases h
            rw [Option.getD_some, if_neg (Nat.ne_of_lt (hi _ _ h2))]
            exact hs.back pc hpc _ _ h2
        · rw [if_neg (Nat.ne_of_lt (hi _ _ h))]
          exact hs.back pc hpc _ _ h
    · intro hf h1 _ e i t h
      cases e
      dsimp only at h ⊢
      rw [OMap.find_emplace hs.timestamps] at h
      rw [OMap.find_emplace hs.indices]
      have h2 : OMap.find s.indices cloud.stamp = none := by
        have := hs.indexed pc hpc cloud.stamp
        rw [hf] at this
        cases h2 : OMap.find s.indices cloud.stamp with
        | none => rfl
        | some _ => rw [h2] at this; cases this
      split at h
      · rename_i hlen
        subst hlen
        rw [hnew] at h
        cases h
        rw [Option.getD_none, if_pos rfl, h2]; rfl
      · have := h1 pc hpc i t h
        rw [if_neg (by rintro rfl; rw [h2] at this; cases this)]
        exact this
    · exact ⟨rfl, rfl, rfl⟩
    · rfl
    · exact hmap

theorem updateMap_spec {s : St P V X} (hs : Inv O s) (pose : P) (t : Int) :
    (∃ s', updateMap O pose t s = (.ok (), s') ∧ Inv O s' ∧ (Single s → Single s') ∧ Quiet s s' ∧
      s'.poseCloud.isSome = s.poseCloud.isSome ∧ (s.poseCloud = none → OMap.find s.map t = none) ∧
      ∀ k, OMap.find s'.map k = if k = t then (OMap.find s.map k).map (fun f => { f with pose := pose })
        else OMap.find s.map k) ∨
    ((updateMap O pose t s).1 = .ub ∧ s.poseCloud = none ∧ (OMap.find s.map t).isSome) := by
  unfold updateMap
  rw [M.get_bind]
  cases hf : OMap.find s.map t with
  | none =>
    left
    refine ⟨s, rfl, hs, fun h => h, Quiet.refl s, rfl, fun _ => rfl, ?_⟩
    intro k
    split
    · rename_i h; subst h; rw [hf]; rfl
    · rfl
  | some f =>
    simp only [M.modify_bind]
    cases hpc : s.poseCloud with
    | none => right; exact ⟨rfl, rfl, rfl⟩
    | some pc =>
      left
      cases hi : OMap.find s.indices t with
      | none =>
        have := hs.indexed pc hpc t
        rw [hi, hf] at this
        cases this
      | some i =>
        have hlt : i < pc.length := (hs.stamped pc hpc i).1 (by rw [hs.back pc hpc t i hi]; rfl)
        have hfs := hs.stamp t f hf
        have hmap : ∀ k, OMap.find (OMap.assign s.map t ({ f with pose := pose, stamp := t } : Frame P X)) k =
            if k = t then (OMap.find s.map k).map (fun f => { f with pose := pose }) else OMap.find s.map k := by
          intro k
          rw [OMap.find_assign hs.sorted]
          split
          · rename_i h; subst h; rw [hf]; simp [← hfs.1]
          · rfl
        simp only
        rw [if_pos hlt]
        refine ⟨_, rfl, ?_, ?_, ?_, ?_, ?_, ?_⟩
        · refine ⟨OMap.sorted_assign hs.sorted _ _, ?_, hs.indices, hs.timestamps, ?_, ?_, ?_, ?_, ?_⟩
          · intro u g hg
            dsimp only at hg
            rw [hmap] at hg
            split at hg
            · rename_i h; subst h; rw [hf] at hg; cases hg; exact hfs
            · exact hs.stamp u g hg
          · intro _ e u
            dsimp only
            rw [hmap]
            split
            · rename_i h; subst h; rw [hf, hi]; rfl
            · exact hs.indexed pc hpc u
          · intro _ e u j g h1 h2
            cases e
            dsimp only at h1 h2
            rw [hmap] at h2
            split at h2
            · rename_i h
              subst h
              rw [hf] at h2
              rw [hi] at h1
              cases h1; cases h2
              simp [hlt]
            · rename_i h
              have hne : i ≠ j := by
                rintro rfl
                have a := hs.back pc hpc _ _ h1
                rw [hs.back pc hpc _ _ hi] at a
                cases a
                exact h rfl
              rw [List.getElem?_set_ne hne]
              exact hs.point pc hpc _ _ _ h1 h2
          · intro _ e j
            cases e
            dsimp only
            rw [List.length_set]
            exact hs.stamped pc hpc j
          · intro _ e j u h
            dsimp only at h ⊢
            have := hs.known pc hpc j u h
            rw [hmap]
            split
            · rename_i h; subst h; rw [hf]; rfl
            · exact this
          · intro _ e u j h
            exact hs.back pc hpc u j h
        · intro h1 _ e j u h
          exact h1 pc hpc j u h
        · exact ⟨rfl, rfl, rfl⟩
        · rfl
        · intro h; cases h
        · exact hmap

/-! ## The path -/

theorem lastFor_nil (k : Int) : lastFor ([] : List (Int × P)) k = none := rfl

theorem lastFor_cons (e : Int × P) (l : List (Int × P)) (k : Int) :
    lastFor (e :: l) k = (lastFor l k).or (if e.1 = k then some e.2 else none) := by
  unfold lastFor
  rw [List.filter_cons]
  by_cases h : e.1 = k
  · simp only [h, decide_true, if_pos]
    cases hl : List.filter (fun e => decide (e.1 = k)) l with
    | nil => simp
    | cons a b =>
      rw [List.getLast?_cons_cons, List.getLast?_eq_some_getLast (List.cons_ne_nil a b)]
      rfl
  · simp only [h, decide_false, if_false]
    simp

theorem lastFor_eq_none {l : List (Int × P)} {k : Int} : lastFor l k = none ↔ ∀ e ∈ l, e.1 ≠ k := by
  simp [lastFor]

theorem lastFor_append (l l' : List (Int × P)) (k : Int) : lastFor (l ++ l') k = (lastFor l' k).or (lastFor l k) := by
  induction l with
  | nil => simp [lastFor_nil]
  | cons e l ih => rw [List.cons_append, lastFor_cons, ih, lastFor_cons, Option.or_assoc]

/-- Frames after corrections. -/
def correct (path : List (Int × P)) (k : Int) (f : Frame P X) : Frame P X :=
  { f with pose := ((lastFor path k).map O.toLidar).getD f.pose }

theorem correct_nil (k : Int) (f : Frame P X) : correct O [] k f = f := rfl

theorem correct_cons (e : Int × P) (l : List (Int × P)) (k : Int) (f : Frame P X) :
    correct O (e :: l) k f = correct O l k (if k = e.1 then { f with pose := O.toLidar e.2 } else f) := by
  unfold correct
  rw [lastFor_cons]
  by_cases h : k = e.1
  · rw [if_pos h, if_pos h.symm]
    cases lastFor l k <;> rfl
  · rw [if_neg h, if_neg (Ne.symm h), Option.or_none]

/-- What the loop over the path does. -/
structure LoopSpec (cloud : Cloud X) (path : List (Int × P)) (found : Option P) (s : St P V X) (r : Option P)
    (s' : St P V X) : Prop where
  inv : Inv O s'
  mode : s'.poseCloud.isSome = s.poseCloud.isSome
  quiet : Quiet s s'
  found : r = ((lastFor path cloud.stamp).map O.toLidar).or found
  others : ∀ k, k ≠ cloud.stamp → OMap.find s'.map k = (OMap.find s.map k).map (correct O path k)
  present : ∀ f, OMap.find s.map cloud.stamp = some f → OMap.find s'.map cloud.stamp = some f
  same : lastFor path cloud.stamp = none → OMap.find s'.map cloud.stamp = OMap.find s.map cloud.stamp
  shape : ∀ f, OMap.find s'.map cloud.stamp = some f → OMap.find s.map cloud.stamp = none →
    ∃ b, (cloud.stamp, b) ∈ path ∧ f = ⟨O.toLidar b, cloud.stamp, cloud⟩
  past : s.poseCloud = none → ∀ e ∈ path, e.1 ≠ cloud.stamp → OMap.find s.map e.1 = none
  single0 : lastFor path cloud.stamp = none → Single s → Single s'
  single : OMap.find s.map cloud.stamp = none → (path.filter (fun e => e.1 = cloud.stamp)).length ≤ 1 → Single s → Single s'

theorem map_eq_nil_of_find {κ ν : Type} [LinearOrder κ] {m : OMap κ ν} (h : ∀ k, OMap.find m k = none) : m = [] := by
  cases m with
  | nil => rfl
  | cons e m =>
    have := h e.1
    rw [OMap.find_cons, if_pos rfl] at this
    cases this

theorem filter_eq_nil_of_lastFor {l : List (Int × P)} {k : Int} (h : lastFor l k = none) :
    l.filter (fun e => e.1 = k) = [] := by
  rw [List.filter_eq_nil_iff]
  intro e he
  simpa using lastFor_eq_none.1 h e he

theorem pathLoop_spec (cloud : Cloud X) (path : List (Int × P)) : ∀ (found : Option P) {s : St P V X}, Inv O s →
    (∃ r s', pathLoop O cloud path found s = (.ok r, s') ∧ LoopSpec O cloud path found s r s') ∨
    ((pathLoop O cloud path found s).1 = .ub ∧ s.poseCloud = none ∧
      ∃ e ∈ path, e.1 ≠ cloud.stamp ∧ (OMap.find s.map e.1).isSome) := by
  induction path with
  | nil =>
    intro found s hs
    left
    refine ⟨found, s, rfl, hs, rfl, Quiet.refl s, by simp [lastFor_nil], ?_, fun f h => h, fun _ => rfl, ?_, ?_, fun _ h => h,
      fun _ _ h => h⟩
    · intro k _
      cases OMap.find s.map k <;> rfl
    · intro f h h'; rw [h] at h'; cases h'
    · intro _ e he; cases he
  | cons e path ih =>
    intro found s hs
    obtain ⟨t, body⟩ := e
    unfold pathLoop
    by_cases ht : t = cloud.stamp
    · subst ht
      simp only [if_true, M.get_bind]
      have tailNone : (((cloud.stamp, body) :: path).filter (fun e => e.1 = cloud.stamp)).length ≤ 1 →
          lastFor path cloud.stamp = none := by
        intro hl
        rw [List.filter_cons, if_pos (by simp), List.length_cons] at hl
        cases hx : path.filter (fun e => e.1 = cloud.stamp) with
        | nil => simp only [lastFor, hx]; rfl
        | cons _ _ => rw [hx, List.length_cons] at hl; omega
      have headSome : lastFor ((cloud.stamp, body) :: path) cloud.stamp ≠ none := by
        rw [lastFor_cons, if_pos rfl]
        cases lastFor path cloud.stamp <;> simp
      have add : (∃ r s', (addToMap O (O.toLidar body) cloud.stamp cloud >>= fun _ =>
            pathLoop O cloud path (some (O.toLidar body))) s = (.ok r, s') ∧
            LoopSpec O cloud ((cloud.stamp, body) :: path) found s r s') ∨
          (((addToMap O (O.toLidar body) cloud.stamp cloud >>= fun _ =>
            pathLoop O cloud path (some (O.toLidar body))) s).1 = .ub ∧ s.poseCloud = none ∧
            ∃ e ∈ (cloud.stamp, body) :: path, e.1 ≠ cloud.stamp ∧ (OMap.find s.map e.1).isSome) := by
        obtain ⟨s1, h1, hinv, hsing, hq, hm, hfind⟩ := addToMap_spec O hs (O.toLidar body) cloud
        rw [M.bind_run, h1]
        rcases ih (some (O.toLidar body)) hinv with ⟨r, s', hr, sp⟩ | ⟨hu, hn, e, he, hne, hsome⟩
        · left
          refine ⟨r, s', hr, sp.inv, sp.mode.trans hm, hq.trans sp.quiet, ?_, ?_, ?_, ?_, ?_, ?_, ?_, ?_⟩
          · rw [sp.found, lastFor_cons, if_pos rfl]
            cases lastFor path cloud.stamp <;> rfl
          · intro k hk
            rw [sp.others k hk, hfind, if_neg hk]
            congr 1
            funext f
            rw [correct_cons, if_neg hk]
          · intro f hf
            exact sp.present f (by rw [hfind, if_pos rfl, hf]; rfl)
          · intro h
            exact absurd h headSome
          · intro f hf h0
            have h2 := sp.present _ (by rw [hfind, if_pos rfl])
            rw [h2, h0] at hf
            cases hf
            exact ⟨body, List.mem_cons_self, rfl⟩
          · intro hp0 e he hne
            have hp1 : s1.poseCloud = none := by
              rw [hp0] at hm
              cases hp : s1.poseCloud with
              | none => rfl
              | some _ => rw [hp] at hm; cases hm
            rcases List.mem_cons.1 he with rfl | he
            · exact absurd rfl hne
            · have := sp.past hp1 e he hne
              rw [hfind, if_neg hne] at this
              exact this
          · intro h
            exact absurd h headSome
          · intro h0 hl hsi
            exact sp.single0 (tailNone hl) (hsing h0 hsi)
        · right
          refine ⟨hu, ?_, e, List.mem_cons_of_mem _ he, hne, ?_⟩
          · rw [hn] at hm
            cases hp : s.poseCloud with
            | none => rfl
            | some _ => rw [hp] at hm; cases hm
          · rw [hfind, if_neg hne] at hsome
            exact hsome
      by_cases he : s.map = []
      · rw [if_pos he]
        exact add
      · rw [if_neg he]
        have hl : ∃ f, lastFrame s = .ok f := by
          unfold lastFrame
          cases hg : s.map.getLast? with
          | none => exact absurd (List.getLast?_eq_none_iff.1 hg) he
          | some f => exact ⟨f.2, rfl⟩
        obtain ⟨f, hf⟩ := hl
        rw [hf, M.lift_ok_bind]
        split
        · exact add
        · rcases ih (some (O.toLidar body)) hs with ⟨r, s', hr, sp⟩ | ⟨hu, hn, e, he, hne, hsome⟩
          · left
            refine ⟨r, s', hr, sp.inv, sp.mode, sp.quiet, ?_, ?_, sp.present, ?_, ?_, ?_, ?_, ?_⟩
            · rw [sp.found, lastFor_cons, if_pos rfl]
              cases lastFor path cloud.stamp <;> rfl
            · intro k hk
              rw [sp.others k hk]
              congr 1
              funext f
              rw [correct_cons, if_neg hk]
            · intro h
              exact absurd h headSome
            · intro f hf h0
              obtain ⟨b, hb, h⟩ := sp.shape f hf h0
              exact ⟨b, List.mem_cons_of_mem _ hb, h⟩
            · intro hp0 e he hne
              rcases List.mem_cons.1 he with rfl | he
              · exact absurd rfl hne
              · exact sp.past hp0 e he hne
            · intro h
              exact absurd h headSome
            · intro h0 hl hsi
              exact sp.single0 (tailNone hl) hsi
          · right; exact ⟨hu, hn, e, List.mem_cons_of_mem _ he, hne, hsome⟩
    · rw [if_neg ht]
      have hlast : lastFor ((t, body) :: path) cloud.stamp = lastFor path cloud.stamp := by
        rw [lastFor_cons, if_neg ht, Option.or_none]
      have hfilt : ((t, body) :: path).filter (fun e => e.1 = cloud.stamp) = path.filter (fun e => e.1 = cloud.stamp) := by
        rw [List.filter_cons, if_neg (by simpa using ht)]
      rw [M.bind_run]
      rcases updateMap_spec O hs (O.toLidar body) t with ⟨s1, h1, hinv, hsing, hq, hm, hpast, hfind⟩ | ⟨hu, hn, hsome⟩
      · rw [h1]
        have h0 : OMap.find s1.map cloud.stamp = OMap.find s.map cloud.stamp := by rw [hfind, if_neg (Ne.symm ht)]
        rcases ih found hinv with ⟨r, s', hr, sp⟩ | ⟨hu, hn, e, he, hne, hsome⟩
        · left
          refine ⟨r, s', hr, sp.inv, sp.mode.trans hm, hq.trans sp.quiet, ?_, ?_, ?_, ?_, ?_, ?_, ?_, ?_⟩
          · rw [sp.found, hlast]
          · intro k hk
            rw [sp.others k hk, hfind]
            by_cases hkt : k = t
            · rw [if_pos hkt, Option.map_map]
              congr 1
              funext f
              rw [correct_cons, if_pos hkt]
              rfl
            · rw [if_neg hkt]
              congr 1
              funext f
              rw [correct_cons, if_neg hkt]
          · intro f hf
            exact sp.present f (h0.trans hf)
          · intro h
            exact (sp.same (hlast ▸ h)).trans h0
          · intro f hf h'
            obtain ⟨b, hb, h⟩ := sp.shape f hf (h0.trans h')
            exact ⟨b, List.mem_cons_of_mem _ hb, h⟩
          · intro hp0 e he hne
            have hp1 : s1.poseCloud = none := by
              rw [hp0] at hm
              cases hp : s1.poseCloud with
              | none => rfl
              | some _ => rw [hp] at hm; cases hm
            rcases List.mem_cons.1 he with rfl | he
            · exact hpast hp0
            · have := sp.past hp1 e he hne
              rw [hfind] at this
              split at this
              · rename_i h; rw [h]; exact hpast hp0
              · exact this
          · intro h hsi
            exact sp.single0 (hlast ▸ h) (hsing hsi)
          · intro h hl hsi
            exact sp.single (h0.trans h) (hfilt ▸ hl) (hsing hsi)
        · right
          refine ⟨hu, ?_, e, List.mem_cons_of_mem _ he, hne, ?_⟩
          · rw [hn] at hm
            cases hp : s.poseCloud with
            | none => rfl
            | some _ => rw [hp] at hm; cases hm
          · rw [hfind] at hsome
            split at hsome
            · cases hf : OMap.find s.map e.1 with
              | none => rw [hf] at hsome; cases hsome
              | some _ => rfl
            · exact hsome
      · right
        refine ⟨?_, hn, (t, body), List.mem_cons_self, ht, hsome⟩
        rcases hx : updateMap O (O.toLidar body) t s with ⟨o, s1⟩
        rw [hx] at hu
        dsimp only at hu
        subst hu
        rfl

theorem mBind_assoc {σ α β γ : Type} (x : M σ α) (f : α → M σ β) (g : β → M σ γ) :
    (x >>= f) >>= g = x >>= fun a => f a >>= g := by
  funext s
  rw [M.bind_run, M.bind_run, M.bind_run]
  rcases x s with ⟨o, s'⟩
  cases o <;> rfl

theorem pathLoop_append (cloud : Cloud X) (pre post : List (Int × P)) : ∀ (found : Option P) (s : St P V X),
    pathLoop O cloud (pre ++ post) found s = (pathLoop O cloud pre found >>= pathLoop O cloud post) s := by
  induction pre with
  | nil => intro found s; rfl
  | cons e pre ih =>
    intro found s
    obtain ⟨t, body⟩ := e
    have ih' : ∀ found, pathLoop O cloud (pre ++ post) found = pathLoop O cloud pre found >>= pathLoop O cloud post :=
      fun found => funext (ih found)
    rw [List.cons_append]
    unfold pathLoop
    simp only [ih']
    split
    · rw [mBind_assoc, M.get_bind, M.get_bind]
      by_cases he : s.map = []
      · simp only [he, if_true]
        rw [mBind_assoc]
      · simp only [he, if_false]
        rw [mBind_assoc]
        cases hl : lastFrame s with
        | ok f =>
          rw [M.lift_ok_bind, M.lift_ok_bind]
          split
          · rw [mBind_assoc]
          · rfl
        | throws => rfl
        | ub => rfl
    · rw [mBind_assoc]

theorem getLast_of_find {m : OMap Int (Frame P X)} (h : OMap.Sorted m) {t : Int} {f : Frame P X}
    (hf : OMap.find m t = some f) (hl : ∀ k, (OMap.find m k).isSome → k ≤ t) : m.getLast? = some (t, f) := by
  cases hg : m.getLast? with
  | none =>
    rw [List.getLast?_eq_none_iff] at hg
    rw [hg] at hf
    cases hf
  | some e =>
    have hmem := List.mem_of_getLast? hg
    have h1 := OMap.find_of_mem h hmem
    have h2 : e.1 ≤ t := hl _ (by rw [h1]; rfl)
    have h3 : t ≤ e.1 := by
      have hm := OMap.mem_of_find hf
      obtain ⟨l, rfl⟩ := List.getLast?_eq_some_iff.1 hg
      rcases List.mem_append.1 hm with hm | hm
      · exact le_of_lt ((List.pairwise_append.1 h).2.2 _ hm _ (List.mem_singleton.2 rfl))
      · rw [List.mem_singleton] at hm
        rw [← hm]
    have : t = e.1 := le_antisymm h3 h2
    subst this
    rw [hf] at h1
    cases h1
    rfl

/-- Whether the frame of the cloud is added, by the rules. -/
theorem pathLoop_added {cloud : Cloud X} {pre post : List (Int × P)} {body : P} {found : Option P} {s s' : St P V X}
    {r : Option P} (hs : Inv O s) (hpre : lastFor pre cloud.stamp = none) (hpost : lastFor post cloud.stamp = none)
    (hnew : OMap.find s.map cloud.stamp = none)
    (h : pathLoop O cloud (pre ++ (cloud.stamp, body) :: post) found s = (.ok r, s')) :
    OMap.find s'.map cloud.stamp =
      open Classical in if ∀ t f, OMap.find s.map t = some f → (∀ k, (OMap.find s.map k).isSome → k ≤ t) →
        O.far (O.toLidar body) (correct O pre t f).pose = true
      then some ⟨O.toLidar body, cloud.stamp, cloud⟩ else none := by
  classical
  rw [pathLoop_append, M.bind_run] at h
  rcases pathLoop_spec O cloud pre found hs with ⟨r1, s1, h1, sp⟩ | ⟨hu, _⟩
  swap
  · rcases hx : pathLoop O cloud pre found s with ⟨o, s1⟩
    rw [hx] at hu h
    dsimp only at hu
    subst hu
    cases h
  rw [h1] at h
  dsimp only at h
  have hnew1 : OMap.find s1.map cloud.stamp = none := (sp.same hpre).trans hnew
  have hdom : ∀ k, (OMap.find s1.map k).isSome = (OMap.find s.map k).isSome := by
    intro k
    by_cases hk : k = cloud.stamp
    · rw [hk, hnew, hnew1]
    · rw [sp.others k hk]; simp
  unfold pathLoop at h
  simp only [if_true, M.get_bind] at h
  have add : ∀ {rest : Unit → M (St P V X) (Option P)}, (rest = fun _ => pathLoop O cloud post (some (O.toLidar body))) →
      (addToMap O (O.toLidar body) cloud.stamp cloud >>= rest) s1 = (.ok r, s') →
      OMap.find s'.map cloud.stamp = some ⟨O.toLidar body, cloud.stamp, cloud⟩ := by
    intro rest hrest h
    obtain ⟨s2, h2, hinv, _, _, _, hfind⟩ := addToMap_spec O sp.inv (O.toLidar body) cloud
    rw [M.bind_run, h2, hrest] at h
    dsimp only at h
    rcases pathLoop_spec O cloud post (some (O.toLidar body)) hinv with ⟨r3, s3, h3, sp3⟩ | ⟨hu, _⟩
    · rw [h3] at h
      cases h
      rw [sp3.same hpost, hfind, if_pos rfl, hnew1]
      rfl
    · rw [h] at hu; cases hu
  by_cases he : s1.map = []
  · rw [if_pos he] at h
    rw [if_pos]
    · exact add rfl h
    · intro t f hf
      have := hdom t
      rw [he, hf] at this
      cases this
  · rw [if_neg he] at h
    cases hg : s1.map.getLast? with
    | none => exact absurd (List.getLast?_eq_none_iff.1 hg) he
    | some e =>
      obtain ⟨t, f⟩ := e
      have hlf : lastFrame s1 = .ok f := by unfold lastFrame; rw [hg]
      rw [hlf, M.lift_ok_bind] at h
      have hff : OMap.find s1.map t = some f := OMap.find_of_mem sp.inv.sorted (List.mem_of_getLast? hg)
      have hmax : ∀ k, (OMap.find s1.map k).isSome → k ≤ t := by
        intro k hk
        obtain ⟨v, hv⟩ := OMap.find_isSome_iff.1 hk
        obtain ⟨l, hl⟩ := List.getLast?_eq_some_iff.1 hg
        have hso := sp.inv.sorted
        rw [hl] at hso hv
        rcases List.mem_append.1 hv with hm | hm
        · exact le_of_lt ((List.pairwise_append.1 hso).2.2 _ hm _ (List.mem_singleton.2 rfl))
        · rw [List.mem_singleton] at hm
          cases hm
          exact le_refl _
      have htne : t ≠ cloud.stamp := by rintro rfl; rw [hnew1] at hff; cases hff
      have hff' := hff
      rw [sp.others t htne] at hff'
      cases hf0 : OMap.find s.map t with
      | none => rw [hf0] at hff'; cases hff'
      | some f0 =>
        rw [hf0] at hff'
        have hcor : f = correct O pre t f0 := (Option.some.inj hff').symm
        have hcond : (∀ t f, OMap.find s.map t = some f → (∀ k, (OMap.find s.map k).isSome → k ≤ t) →
            O.far (O.toLidar body) (correct O pre t f).pose = true) ↔ O.far (O.toLidar body) f.pose = true := by
          constructor
          · intro hh
            have := hh t f0 hf0 (fun k hk => hmax k (by rw [hdom]; exact hk))
            rw [hcor]; exact this
          · intro hh u g hgf hu
            have hut : u = t := by
              apply le_antisymm
              · exact hmax u (by rw [hdom, hgf]; rfl)
              · exact hu t (by rw [hf0]; rfl)
            subst hut
            rw [hf0] at hgf
            cases hgf
            rw [← hcor]; exact hh
        by_cases hfar : O.far (O.toLidar body) f.pose = true
        · rw [if_pos hfar] at h
          rw [if_pos (hcond.2 hfar)]
          exact add rfl h
        · rw [if_neg hfar] at h
          rw [if_neg (fun c => hfar (hcond.1 c))]
          rcases pathLoop_spec O cloud post (some (O.toLidar body)) sp.inv with ⟨r3, s3, h3, sp3⟩ | ⟨hu, _⟩
          · rw [h3] at h
            cases h
            rw [sp3.same hpost, hnew1]
          · rw [h] at hu; cases hu

end Mapping

end Serpent
