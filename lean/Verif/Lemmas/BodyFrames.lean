import Verif.Spec.BodyFrames
import Verif.Lemmas.Iso
import Mathlib.Data.List.Nodup

/-!
# Lemmas about the frame tree: reading the configuration adds the entries of a flat list, one by one
-/

namespace Serpent.BodyFrames

variable {T : Type}

/-- What is stored for one frame. -/
structure Entry (T : Type) where
  name : String
  id : String
  dynamic : Bool
  aliases : List String
  looksUp : Bool
  transform : Option T

theorem contains_iff {ν : Type} {m : OMap String ν} {k : String} : OMap.contains m k = true ↔ ∃ v, OMap.find m k = some v := by
  unfold OMap.contains; exact Option.isSome_iff_exists

theorem not_contains_iff {ν : Type} {m : OMap String ν} {k : String} : OMap.contains m k = false ↔ OMap.find m k = none := by
  unfold OMap.contains; exact Option.isSome_eq_false_iff.trans Option.isNone_iff_eq_none

theorem contains_emplace {ν : Type} {m : OMap String ν} (h : OMap.Sorted m) (k : String) (v : ν) (k' : String) :
    OMap.contains (OMap.emplace m k v) k' = (decide (k' = k) || OMap.contains m k') := by
  unfold OMap.contains
  rw [OMap.find_emplace h]
  by_cases hk : k' = k <;> simp [hk]

/-- Adding the ids and aliases of a frame. -/
def addKeys (m : OMap String String) (name : String) : List String → OMap String String
  | [] => m
  | a :: as => addKeys (OMap.emplace m a name) name as

theorem sorted_addKeys {name : String} : ∀ (ks : List String) {m : OMap String String}, OMap.Sorted m →
    OMap.Sorted (addKeys m name ks)
  | [], _, h => h
  | _ :: ks, _, h => sorted_addKeys ks (OMap.sorted_emplace h _ _)

theorem find_addKeys {name : String} : ∀ (ks : List String) {m : OMap String String}, OMap.Sorted m →
    (∀ k ∈ ks, OMap.find m k = none) → ∀ k, OMap.find (addKeys m name ks) k = if k ∈ ks then some name else OMap.find m k
  | [], _, _, _, k => by simp [addKeys]
  | a :: ks, m, h, hf, k => by
    unfold addKeys
    by_cases ha : a ∈ ks
    · -- repeated key: later emplacements keep the value
      have key : ∀ (ks : List String) {m : OMap String String}, OMap.Sorted m →
          (∀ k ∈ ks, OMap.find m k = none ∨ OMap.find m k = some name) →
          ∀ k, OMap.find (addKeys m name ks) k = if k ∈ ks then some name else OMap.find m k := by
        intro ks
        induction ks with
        | nil => intro m _ _ k; simp [addKeys]
        | cons b ks ih =>
          intro m h hf k
          unfold addKeys
          rw [ih (OMap.sorted_emplace h _ _)]
          · rw [OMap.find_emplace h]
            by_cases hkb : k = b
            · subst hkb
              rcases hf k (by simp) with h1 | h1 <;> by_cases hk : k ∈ ks <;> simp [hk, h1]
            · simp [hkb]
          · intro k hk
            rw [OMap.find_emplace h]
            by_cases hkb : k = b
            · subst hkb
              rcases hf k (by simp) with h1 | h1 <;> simp [h1]
            · simp only [hkb, if_false]
              exact hf k (by simp [hk])
      have := key (a :: ks) h (fun k hk => .inl (hf k hk)) k
      unfold addKeys at this
      exact this
    · rw [find_addKeys ks (OMap.sorted_emplace h _ _)]
      · rw [OMap.find_emplace h]
        by_cases hkb : k = a
        · subst hkb; simp [hf k (by simp)]
        · simp [hkb]
      · intro k hk
        rw [OMap.find_emplace h, if_neg (by rintro rfl; exact ha hk)]
        exact hf k (by simp [hk])

/-- Relations between the maps. -/
structure MapsInv (s : St T) : Prop where
  frameIds : OMap.Sorted s.frameIds
  frames : OMap.Sorted s.frames
  lookedup : OMap.Sorted s.lookedup
  dynamic : OMap.Sorted s.dynamic
  aliases : OMap.Sorted s.aliases
  bodyToFrame : OMap.Sorted s.bodyToFrame
  frameToBody : OMap.Sorted s.frameToBody
  cLookedup : ∀ k, OMap.contains s.frameIds k = false → OMap.contains s.lookedup k = false
  cDynamic : ∀ k, OMap.contains s.frameIds k = false → OMap.contains s.dynamic k = false
  cAliases : ∀ k, OMap.contains s.frames k = false → OMap.contains s.aliases k = false
  cBodyToFrame : ∀ k, OMap.contains s.frameIds k = false → OMap.contains s.bodyToFrame k = false
  cFrameToBody : ∀ k, OMap.contains s.frameIds k = false → OMap.contains s.frameToBody k = false

/-- An entry can be added. -/
def Fresh (e : Entry T) (s : St T) : Prop :=
  OMap.contains s.frameIds e.name = false ∧ (e.id :: e.aliases).Nodup ∧ ∀ k ∈ e.id :: e.aliases, OMap.contains s.frames k = false

variable [Inv T]

/-- The state with an entry added. -/
def put (e : Entry T) (s : St T) : St T where
  body := s.body
  frameIds := OMap.emplace s.frameIds e.name e.id
  frames := addKeys s.frames e.name (e.id :: e.aliases)
  lookedup := OMap.emplace s.lookedup e.name e.looksUp
  dynamic := OMap.emplace s.dynamic e.name e.dynamic
  aliases := OMap.emplace s.aliases e.id e.aliases
  bodyToFrame := match e.transform with
    | some t => OMap.emplace s.bodyToFrame e.name t
    | none => s.bodyToFrame
  frameToBody := match e.transform with
    | some t => OMap.emplace s.frameToBody e.name t⁻¹
    | none => s.frameToBody

theorem emplace_keeps {ν μ : Type} {m : OMap String ν} {n : OMap String μ} (hm : OMap.Sorted m) (hn : OMap.Sorted n)
    (h : ∀ k, OMap.contains m k = false → OMap.contains n k = false) (a : String) (v : ν) (w : μ) (k : String)
    (hk : OMap.contains (OMap.emplace m a v) k = false) : OMap.contains (OMap.emplace n a w) k = false := by
  rw [contains_emplace hm] at hk
  rw [contains_emplace hn]
  simp only [Bool.or_eq_false_iff] at hk ⊢
  exact ⟨hk.1, h k hk.2⟩

theorem emplace_keeps' {ν μ : Type} {m : OMap String ν} {n : OMap String μ} (hm : OMap.Sorted m)
    (h : ∀ k, OMap.contains m k = false → OMap.contains n k = false) (a : String) (v : ν) (k : String)
    (hk : OMap.contains (OMap.emplace m a v) k = false) : OMap.contains n k = false := by
  rw [contains_emplace hm] at hk
  simp only [Bool.or_eq_false_iff] at hk
  exact h k hk.2

theorem contains_addKeys {name : String} (ks : List String) {m : OMap String String} (h : OMap.Sorted m)
    (hf : ∀ k ∈ ks, OMap.contains m k = false) (k : String) :
    OMap.contains (addKeys m name ks) k = (decide (k ∈ ks) || OMap.contains m k) := by
  unfold OMap.contains
  rw [find_addKeys ks h (fun k hk => not_contains_iff.1 (hf k hk))]
  by_cases hk : k ∈ ks <;> simp [hk]

theorem inv_put {e : Entry T} {s : St T} (h : MapsInv s) (hf : Fresh e s) : MapsInv (put e s) where
  frameIds := OMap.sorted_emplace h.frameIds _ _
  frames := sorted_addKeys _ h.frames
  lookedup := OMap.sorted_emplace h.lookedup _ _
  dynamic := OMap.sorted_emplace h.dynamic _ _
  aliases := OMap.sorted_emplace h.aliases _ _
  bodyToFrame := by
    unfold put; dsimp only; split
    · exact OMap.sorted_emplace h.bodyToFrame _ _
    · exact h.bodyToFrame
  frameToBody := by
    unfold put; dsimp only; split
    · exact OMap.sorted_emplace h.frameToBody _ _
    · exact h.frameToBody
  cLookedup := emplace_keeps h.frameIds h.lookedup h.cLookedup _ _ _
  cDynamic := emplace_keeps h.frameIds h.dynamic h.cDynamic _ _ _
  cAliases := by
    intro k hk
    unfold put at hk ⊢; dsimp only at hk ⊢
    rw [contains_addKeys _ h.frames hf.2.2] at hk
    simp only [Bool.or_eq_false_iff, decide_eq_false_iff_not, List.mem_cons, not_or] at hk
    rw [contains_emplace h.aliases]
    simp [hk.1.1, h.cAliases k hk.2]
  cBodyToFrame := by
    intro k hk
    unfold put; dsimp only; split
    · exact emplace_keeps h.frameIds h.bodyToFrame h.cBodyToFrame _ _ _ k hk
    · exact emplace_keeps' h.frameIds h.cBodyToFrame _ _ k hk
  cFrameToBody := by
    intro k hk
    unfold put; dsimp only; split
    · exact emplace_keeps h.frameIds h.frameToBody h.cFrameToBody _ _ _ k hk
    · exact emplace_keeps' h.frameIds h.cFrameToBody _ _ k hk

/-- A computation throws. -/
def Throws {σ α : Type} (x : Outcome α × σ) : Prop := x.1 = .throws

variable [Mul T] [One T]

/-- Outcome of adding an entry. -/
def Adds {α : Type} (x : Outcome α × St T) (e : Entry T) (a : α) (s : St T) : Prop :=
  (Fresh e s → x = (.ok a, put e s)) ∧ (¬ Fresh e s → Throws x)

/-- The entry of a node. -/
def entryOf (tf : TF T) (name : String) (d : NodeData T) (b : Bool) (pre : T) (parentId : String) : Option (Entry T) :=
  if d.dynamic.getD false then
    if d.aliases.isSome || d.lookupTf.isSome || d.pose.isSome || b then none
    else some ⟨name, d.frameId.getD name, true, [], false, none⟩
  else
    (if d.lookupTf.getD false then tf parentId (d.frameId.getD name) 0 else some (d.pose.getD 1)).map fun loc =>
      ⟨name, d.frameId.getD name, false, d.aliases.getD [], d.lookupTf.getD false, some (pre * loc)⟩

theorem throws_bind {σ α β : Type} {x : M σ α} {f : α → M σ β} {s : σ} (h : Throws (x s)) : Throws ((x >>= f) s) := by
  unfold Throws at h ⊢
  rw [M.bind_run]
  rcases hx : x s with ⟨o, s'⟩
  rw [hx] at h
  cases o <;> simp_all

theorem ok_bind {σ α β : Type} {x : M σ α} {f : α → M σ β} {s s' : σ} {a : α} (h : x s = (.ok a, s')) :
    (x >>= f) s = f a s' := by
  rw [M.bind_run, h]

omit [Inv T] [Mul T] [One T] in
theorem addAliases_run (name : String) : ∀ (as : List String) (s : St T), OMap.Sorted s.frames →
    ((as.Nodup ∧ ∀ k ∈ as, OMap.contains s.frames k = false) →
      addAliases name as s = (.ok (), { s with frames := addKeys s.frames name as })) ∧
    (¬ (as.Nodup ∧ ∀ k ∈ as, OMap.contains s.frames k = false) → Throws (addAliases name as s))
  | [], s, _ => ⟨fun _ => rfl, fun h => (h ⟨List.nodup_nil, by simp⟩).elim⟩
  | a :: as, s, hs => by
    unfold addAliases
    by_cases hc : OMap.contains s.frames a = true
    · refine ⟨fun h => ?_, fun _ => throws_bind ?_⟩
      · have := h.2 a (by simp)
        rw [this] at hc; cases hc
      · unfold emplaceFrame Throws
        rw [M.get_bind, if_pos hc]; rfl
    · have hc' : OMap.contains s.frames a = false := by simpa using hc
      have h1 : emplaceFrame a name s = (.ok (), { s with frames := OMap.emplace s.frames a name }) := by
        unfold emplaceFrame
        rw [M.get_bind, if_neg hc]; rfl
      rw [ok_bind h1]
      have ih := addAliases_run name as { s with frames := OMap.emplace s.frames a name } (OMap.sorted_emplace hs _ _)
      have hiff : (as.Nodup ∧ ∀ k ∈ as, OMap.contains (OMap.emplace s.frames a name) k = false) ↔
          ((a :: as).Nodup ∧ ∀ k ∈ a :: as, OMap.contains s.frames k = false) := by
        rw [List.nodup_cons]
        constructor
        · rintro ⟨h1, h2⟩
          refine ⟨⟨fun ha => ?_, h1⟩, fun k hk => ?_⟩
          · have := h2 a ha
            rw [contains_emplace hs] at this
            simp at this
          · rcases List.mem_cons.1 hk with rfl | hk
            · exact hc'
            · have := h2 k hk
              rw [contains_emplace hs] at this
              simp only [Bool.or_eq_false_iff] at this
              exact this.2
        · rintro ⟨⟨h0, h1⟩, h2⟩
          refine ⟨h1, fun k hk => ?_⟩
          rw [contains_emplace hs]
          have : k ≠ a := by rintro rfl; exact h0 hk
          simp [this, h2 k (by simp [hk])]
      rw [hiff] at ih
      exact ih

/-- State after the names of a frame have been added. -/
def named (e : Entry T) (s : St T) : St T :=
  { s with frameIds := OMap.emplace s.frameIds e.name e.id, frames := OMap.emplace s.frames e.id e.name,
           dynamic := OMap.emplace s.dynamic e.name e.dynamic }

omit [Inv T] [Mul T] [One T] in
theorem addStrings_run (name id : String) (s : St T) :
    ((OMap.contains s.frameIds name = false ∧ OMap.contains s.frames id = false) →
      addFrameStrings name id s = (.ok (), { s with frameIds := OMap.emplace s.frameIds name id,
                                                    frames := OMap.emplace s.frames id name })) ∧
    (¬ (OMap.contains s.frameIds name = false ∧ OMap.contains s.frames id = false) → Throws (addFrameStrings name id s)) := by
  unfold addFrameStrings emplaceFrameId emplaceFrame
  by_cases h1 : OMap.contains s.frameIds name = true
  · refine ⟨fun h => (by rw [h.1] at h1; cases h1), fun _ => throws_bind ?_⟩
    unfold Throws; rw [M.get_bind, if_pos h1]; rfl
  · have h1' : OMap.contains s.frameIds name = false := by simpa using h1
    rw [ok_bind (s' := { s with frameIds := OMap.emplace s.frameIds name id }) (a := ()) (by rw [M.get_bind, if_neg h1]; rfl)]
    rw [M.get_bind]
    by_cases h2 : OMap.contains s.frames id = true
    · refine ⟨fun h => (by rw [h.2] at h2; cases h2), fun _ => ?_⟩
      unfold Throws; dsimp only; rw [if_pos h2]; rfl
    · have h2' : OMap.contains s.frames id = false := by simpa using h2
      refine ⟨fun _ => ?_, fun h => (h ⟨h1', h2'⟩).elim⟩
      dsimp only; rw [if_neg h2]; rfl

omit [Mul T] [One T] in
theorem addTransforms_run {name : String} {t : T} {s : St T} (h1 : OMap.contains s.bodyToFrame name = false)
    (h2 : OMap.contains s.frameToBody name = false) :
    addFrameTransforms name t s = (.ok (), { s with bodyToFrame := OMap.emplace s.bodyToFrame name t,
                                                    frameToBody := OMap.emplace s.frameToBody name t⁻¹ }) := by
  unfold addFrameTransforms addFrameTransforms2
  rw [M.get_bind, if_neg (by simp [h1]), M.modify_bind, if_neg (by simp [h2])]
  rfl

omit [Inv T] [Mul T] [One T] in
theorem emplaceAliases_run {id : String} {as : List String} {s : St T} (h : OMap.contains s.aliases id = false) :
    emplaceAliases id as s = (.ok (), { s with aliases := OMap.emplace s.aliases id as }) := by
  unfold emplaceAliases
  rw [M.get_bind, if_neg (by simp [h])]; rfl

omit [Inv T] [Mul T] [One T] in
theorem emplaceLookedup_run {name : String} {v : Bool} {s : St T} (h : OMap.contains s.lookedup name = false) :
    emplaceLookedup name v s = (.ok (), { s with lookedup := OMap.emplace s.lookedup name v }) := by
  unfold emplaceLookedup
  rw [M.get_bind, if_neg (by simp [h])]; rfl

omit [Inv T] [Mul T] [One T] in
theorem emplaceDynamic_run {name : String} {v : Bool} {s : St T} (h : OMap.contains s.dynamic name = false) :
    emplaceDynamic name v s = (.ok (), { s with dynamic := OMap.emplace s.dynamic name v }) := by
  unfold emplaceDynamic
  rw [M.get_bind, if_neg (by simp [h])]; rfl

/-- Reading a node adds its entry, or throws. -/
theorem addFrame_run (tf : TF T) (name : String) (d : NodeData T) (b : Bool) (pre : T) {parent parentId : String} {s : St T}
    (h : MapsInv s) (hp : OMap.find s.frameIds parent = some parentId) :
    (∀ e, entryOf tf name d b pre parentId = some e → Adds (addFrame tf name d b pre parent s) e e.transform s) ∧
    (entryOf tf name d b pre parentId = none → Throws (addFrame tf name d b pre parent s)) := by
  unfold addFrame entryOf
  dsimp only
  by_cases hn : OMap.contains s.frameIds name = false ∧ OMap.contains s.frames (d.frameId.getD name) = false
  · rw [ok_bind ((addStrings_run name (d.frameId.getD name) s).1 hn), ok_bind (emplaceDynamic_run (by exact h.cDynamic name hn.1))]
    have hlook := h.cLookedup name hn.1
    have hali := h.cAliases _ hn.2
    have hb := h.cBodyToFrame name hn.1
    have hfb := h.cFrameToBody name hn.1
    by_cases hd : d.dynamic.getD false = true
    · simp only [hd, if_true]
      by_cases hbad : (d.aliases.isSome || d.lookupTf.isSome || d.pose.isSome || b) = true
      · simp only [hbad, if_true]
        exact ⟨fun e he => (by cases he), fun _ => rfl⟩
      · simp only [hbad]
        refine ⟨fun e he => ?_, fun he => by cases he⟩
        cases he
        refine ⟨fun _ => ?_, fun hf => (hf ⟨hn.1, by simp, by simpa using hn.2⟩).elim⟩
        simp only [Bool.false_eq_true, if_false]
        rw [ok_bind (emplaceLookedup_run (by exact hlook)), ok_bind (emplaceAliases_run (by exact hali))]
        rfl
    · have hd' : d.dynamic.getD false = false := by simpa using hd
      simp only [hd', Bool.false_eq_true, if_false]
      have hpne : parent ≠ name := by
        rintro rfl
        have := hn.1
        rw [not_contains_iff, hp] at this; cases this
      -- the lookup
      have hloc : ∀ (s0 : St T), s0.lookedup = s.lookedup → s0.frameIds = OMap.emplace s.frameIds name (d.frameId.getD name) →
          (∀ loc, (if d.lookupTf.getD false = true then tf parentId (d.frameId.getD name) 0 else some (d.pose.getD 1)) = some loc →
            transformFromNode tf d name parent s0 = (.ok loc, { s0 with lookedup := OMap.emplace s0.lookedup name (d.lookupTf.getD false) })) ∧
          ((if d.lookupTf.getD false = true then tf parentId (d.frameId.getD name) 0 else some (d.pose.getD 1)) = none →
            Throws (transformFromNode tf d name parent s0)) := by
        intro s0 hl hids
        unfold transformFromNode
        rw [ok_bind (emplaceLookedup_run (by rw [hl]; exact hlook))]
        by_cases hlk : d.lookupTf.getD false = true
        · simp only [hlk, if_true]
          have e1 : OMap.find s0.frameIds parent = some parentId := by
            rw [hids, OMap.find_emplace h.frameIds, if_neg hpne]; exact hp
          have e2 : OMap.find s0.frameIds name = some (d.frameId.getD name) := by
            rw [hids, OMap.find_emplace h.frameIds, if_pos rfl, not_contains_iff.1 hn.1]; rfl
          rw [M.get_bind]
          unfold lookupTransform at_ Throws
          simp only [e1, e2, Outcome.bind_ok, M.lift_run]
          refine ⟨fun loc hl => by rw [hl], fun hl => by rw [hl]⟩
        · simp only [hlk, Bool.false_eq_true, if_false]
          refine ⟨fun loc hl => (by cases hl; rfl), fun hl => by cases hl⟩
      have hloc' := hloc { s with frameIds := OMap.emplace s.frameIds name (d.frameId.getD name),
                                  frames := OMap.emplace s.frames (d.frameId.getD name) name,
                                  dynamic := OMap.emplace s.dynamic name false } rfl rfl
      cases hx : (if d.lookupTf.getD false = true then tf parentId (d.frameId.getD name) 0 else some (d.pose.getD 1)) with
      | none =>
        refine ⟨fun e he => by simp at he, fun _ => throws_bind (hloc'.2 hx)⟩
      | some loc =>
        refine ⟨fun e he => ?_, fun he => by simp at he⟩
        simp only [Option.map_some, Option.some.injEq] at he
        subst he
        rw [Adds, ok_bind (hloc'.1 loc hx)]
        dsimp only
        rw [ok_bind (addTransforms_run (t := pre * loc) (by exact hb) (by exact hfb))]
        dsimp only
        have hal := addAliases_run name (d.aliases.getD [])
          ({ s with frameIds := OMap.emplace s.frameIds name (d.frameId.getD name),
                    frames := OMap.emplace s.frames (d.frameId.getD name) name,
                    dynamic := OMap.emplace s.dynamic name false,
                    lookedup := OMap.emplace s.lookedup name (d.lookupTf.getD false),
                    bodyToFrame := OMap.emplace s.bodyToFrame name (pre * loc),
                    frameToBody := OMap.emplace s.frameToBody name (pre * loc)⁻¹ }) (OMap.sorted_emplace h.frames _ _)
        have hiff : ((d.aliases.getD []).Nodup ∧ ∀ k ∈ d.aliases.getD [],
              OMap.contains (OMap.emplace s.frames (d.frameId.getD name) name) k = false) ↔
            Fresh (⟨name, d.frameId.getD name, false, d.aliases.getD [], d.lookupTf.getD false, some (pre * loc)⟩ : Entry T) s := by
          unfold Fresh
          dsimp only
          rw [List.nodup_cons]
          constructor
          · rintro ⟨h1, h2⟩
            refine ⟨hn.1, ⟨fun ha => ?_, h1⟩, fun k hk => ?_⟩
            · have := h2 _ ha
              rw [contains_emplace h.frames] at this
              simp at this
            · rcases List.mem_cons.1 hk with rfl | hk
              · exact hn.2
              · have := h2 k hk
                rw [contains_emplace h.frames] at this
                simp only [Bool.or_eq_false_iff] at this
                exact this.2
          · rintro ⟨-, ⟨h0, h1⟩, h2⟩
            refine ⟨h1, fun k hk => ?_⟩
            rw [contains_emplace h.frames]
            have : k ≠ d.frameId.getD name := by rintro rfl; exact h0 hk
            simp only [this, decide_false, Bool.false_or]
            exact h2 k (by simp [hk])
        dsimp only at hal
        rw [hiff] at hal
        refine ⟨fun hf => ?_, fun hf => throws_bind (hal.2 hf)⟩
        rw [ok_bind (hal.1 hf), ok_bind (emplaceAliases_run (by exact hali))]
        rfl
  · have ht := (addStrings_run name (d.frameId.getD name) s).2 hn
    refine ⟨fun e he => ⟨fun hf => ?_, fun _ => throws_bind ht⟩, fun _ => throws_bind ht⟩
    exfalso
    apply hn
    have : e.name = name ∧ e.id = d.frameId.getD name := by
      split at he
      · split at he
        · cases he
        · cases he; exact ⟨rfl, rfl⟩
      · obtain ⟨loc, -, rfl⟩ := Option.map_eq_some_iff.1 he
        exact ⟨rfl, rfl⟩
    refine ⟨this.1 ▸ hf.1, this.2 ▸ hf.2.2 e.id (by simp)⟩

/-- The entries of a configuration tree, in the order in which they are added. -/
def flatten (tf : TF T) : Forest T → T → String → Option (List (Entry T))
  | .nil, _, _ => some []
  | .cons name d b children rest, pre, parentId =>
    (entryOf tf name d b pre parentId).bind fun e =>
      (match e.transform with
        | none => some []
        | some t => if b then flatten tf children t e.id else some []).bind fun cs =>
      (flatten tf rest pre parentId).bind fun rs => some (e :: (cs ++ rs))

open Classical in
/-- Adding entries one by one. -/
noncomputable def putAll : List (Entry T) → St T → Option (St T)
  | [], s => some s
  | e :: es, s => if Fresh e s then putAll es (put e s) else none

omit [Mul T] [One T] in
theorem putAll_append : ∀ (es fs : List (Entry T)) (s : St T), putAll (es ++ fs) s = (putAll es s).bind (putAll fs)
  | [], _, _ => rfl
  | e :: es, fs, s => by
    simp only [List.cons_append, putAll]
    split
    · exact putAll_append es fs _
    · rfl

omit [Mul T] [One T] in
theorem inv_putAll : ∀ (es : List (Entry T)) {s s' : St T}, MapsInv s → putAll es s = some s' → MapsInv s'
  | [], _, _, h, he => by cases he; exact h
  | e :: es, s, s', h, he => by
    simp only [putAll] at he
    split at he
    · rename_i hf; exact inv_putAll es (inv_put h hf) he
    · cases he

omit [Mul T] [One T] in
theorem find_put_frameIds {e : Entry T} {s : St T} (h : MapsInv s) (hf : Fresh e s) (k : String) :
    OMap.find (put e s).frameIds k = if k = e.name then some e.id else OMap.find s.frameIds k := by
  unfold put; dsimp only
  rw [OMap.find_emplace h.frameIds]
  by_cases hk : k = e.name
  · subst hk; simp [not_contains_iff.1 hf.1]
  · simp [hk]

omit [Mul T] [One T] in
theorem find_put_of_some {e : Entry T} {s : St T} (h : MapsInv s) (hf : Fresh e s) {k v : String}
    (hk : OMap.find s.frameIds k = some v) : OMap.find (put e s).frameIds k = some v := by
  rw [find_put_frameIds h hf, if_neg]
  · exact hk
  · rintro rfl
    rw [not_contains_iff.1 hf.1] at hk; cases hk

omit [Mul T] [One T] in
theorem find_putAll_of_some : ∀ (es : List (Entry T)) {s s' : St T}, MapsInv s → putAll es s = some s' → ∀ {k v : String},
    OMap.find s.frameIds k = some v → OMap.find s'.frameIds k = some v
  | [], _, _, _, he, _, _, hk => by cases he; exact hk
  | e :: es, s, s', h, he, k, v, hk => by
    simp only [putAll] at he
    split at he
    · rename_i hf; exact find_putAll_of_some es (inv_put h hf) he (find_put_of_some h hf hk)
    · cases he

/-- `process_frames` adds the entries of the tree one by one, or throws. -/
theorem processFrames_run (tf : TF T) : ∀ (f : Forest T) (pre : T) {parent parentId : String} {s : St T}, MapsInv s →
    OMap.find s.frameIds parent = some parentId →
    (∀ es s', flatten tf f pre parentId = some es → putAll es s = some s' → processFrames tf f pre parent s = (.ok (), s')) ∧
    ((∀ es s', flatten tf f pre parentId = some es → putAll es s = some s' → False) →
      Throws (processFrames tf f pre parent s)) := by
  intro f
  induction f with
  | nil =>
    intro pre parent parentId s _ _
    unfold processFrames flatten
    refine ⟨fun es s' he hp => (by cases he; cases hp; rfl), fun h => (h [] s rfl rfl).elim⟩
  | cons name d b children rest ihc ihr =>
    intro pre parent parentId s h hp
    unfold processFrames flatten
    have ha := addFrame_run tf name d b pre h hp
    cases he : entryOf tf name d b pre parentId with
    | none =>
      refine ⟨fun es s' hes _ => by simp at hes, fun _ => throws_bind (ha.2 he)⟩
    | some e =>
      have hadd := ha.1 e he
      by_cases hf : Fresh e s
      · rw [ok_bind (hadd.1 hf)]
        have hi := inv_put h hf
        have hname : OMap.find (put e s).frameIds name = some e.id := by
          have : e.name = name := by
            unfold entryOf at he
            split at he
            · split at he
              · cases he
              · cases he; rfl
            · obtain ⟨loc, -, rfl⟩ := Option.map_eq_some_iff.1 he; rfl
          rw [← this, find_put_frameIds h hf, if_pos rfl]
        have hpar := find_put_of_some h hf hp
        -- the rest after some children
        cases ht : e.transform with
        | none =>
          dsimp only
          have ih := ihr pre hi hpar
          constructor
          · intro es s' hes hput
            simp only [Option.bind_some, List.nil_append, ht] at hes
            obtain ⟨rs, hrs, hes⟩ := Option.bind_eq_some_iff.1 hes
            cases hes
            refine ih.1 rs s' hrs ?_
            simpa [putAll, hf] using hput
          · intro hno
            refine ih.2 fun rs s' hrs hput => ?_
            refine hno (e :: rs) s' (by simp [ht, hrs]) (by simpa [putAll, hf] using hput)
        | some t =>
          dsimp only
          cases b with
          | false =>
            simp only [Bool.false_eq_true, if_false]
            have ih := ihr pre hi hpar
            constructor
            · intro es s' hes hput
              simp only [Option.bind_some, List.nil_append, ht] at hes
              obtain ⟨rs, hrs, hes⟩ := Option.bind_eq_some_iff.1 hes
              cases hes
              refine ih.1 rs s' hrs ?_
              simpa [putAll, hf] using hput
            · intro hno
              refine ih.2 fun rs s' hrs hput => ?_
              refine hno (e :: rs) s' (by simp [ht, hrs]) (by simpa [putAll, hf] using hput)
          | true =>
            simp only [if_true]
            have ih := ihc t hi hname
            constructor
            · intro es s' hes hput
              simp only [Option.bind_some, ht] at hes
              obtain ⟨cs, hcs, hes⟩ := Option.bind_eq_some_iff.1 hes
              obtain ⟨rs, hrs, hes⟩ := Option.bind_eq_some_iff.1 hes
              cases hes
              have hput' : putAll (cs ++ rs) (put e s) = some s' := by simpa [putAll, hf] using hput
              rw [putAll_append] at hput'
              obtain ⟨s1, h1, h2⟩ := Option.bind_eq_some_iff.1 hput'
              rw [ok_bind (ih.1 cs s1 hcs h1)]
              exact (ihr pre (inv_putAll _ hi h1) (find_putAll_of_some _ hi h1 hpar)).1 rs s' hrs h2
            · intro hno
              by_cases hc : ∃ cs s1, flatten tf children t e.id = some cs ∧ putAll cs (put e s) = some s1
              · obtain ⟨cs, s1, hcs, h1⟩ := hc
                rw [ok_bind (ih.1 cs s1 hcs h1)]
                refine (ihr pre (inv_putAll _ hi h1) (find_putAll_of_some _ hi h1 hpar)).2 fun rs s' hrs h2 => ?_
                refine hno (e :: (cs ++ rs)) s' (by simp [ht, hcs, hrs]) ?_
                simp only [putAll, hf, if_true]
                rw [putAll_append, h1]
                exact h2
              · exact throws_bind (ih.2 fun cs s1 hcs h1 => hc ⟨cs, s1, hcs, h1⟩)
      · refine ⟨fun es s' hes hput => ?_, fun _ => throws_bind (hadd.2 hf)⟩
        exfalso
        simp only [Option.bind_some] at hes
        obtain ⟨cs, hcs, hes⟩ := Option.bind_eq_some_iff.1 hes
        obtain ⟨rs, hrs, hes⟩ := Option.bind_eq_some_iff.1 hes
        cases hes
        simp [putAll, hf] at hput

end Serpent.BodyFrames
