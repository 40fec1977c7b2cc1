import Verif.Lemmas.BodyFrames

/-!
# The stored frames are the frames of the configuration
-/

namespace Serpent.BodyFrames

variable {T : Type} [Inv T]

/-- Ids and aliases of entries. -/
def entryKeys (es : List (Entry T)) : List String := es.flatMap fun e => e.id :: e.aliases

theorem find_put_frames {e : Entry T} {s : St T} (h : MapsInv s) (hf : Fresh e s) (k : String) :
    OMap.find (put e s).frames k = if k ∈ e.id :: e.aliases then some e.name else OMap.find s.frames k :=
  find_addKeys _ h.frames (fun k hk => not_contains_iff.1 (hf.2.2 k hk)) k

/-- Entries can be added if and only if names are different, and ids and aliases are different. -/
theorem putAll_iff : ∀ (es : List (Entry T)) {s : St T}, MapsInv s →
    ((∃ s', putAll es s = some s') ↔
      (es.map (·.name)).Nodup ∧ (∀ n ∈ es.map (·.name), OMap.find s.frameIds n = none) ∧
      (entryKeys es).Nodup ∧ ∀ k ∈ entryKeys es, OMap.find s.frames k = none)
  | [], s, _ => by simp [putAll, entryKeys]
  | e :: es, s, h => by
    by_cases hf : Fresh e s
    · have ih := putAll_iff es (inv_put h hf)
      simp only [putAll, hf, if_true, ih]
      have hk : entryKeys (e :: es) = (e.id :: e.aliases) ++ entryKeys es := rfl
      rw [hk, List.nodup_append, List.map_cons, List.nodup_cons]
      have hfr := find_put_frames h hf
      have hid := find_put_frameIds h hf
      constructor
      · rintro ⟨h1, h2, h3, h4⟩
        refine ⟨⟨fun hm => ?_, h1⟩, fun n hn => ?_, ⟨hf.2.1, h3, fun a ha b hb hab => ?_⟩, fun k hk => ?_⟩
        · have := h2 _ hm
          rw [hid, if_pos rfl] at this; cases this
        · rcases List.mem_cons.1 hn with rfl | hn
          · exact not_contains_iff.1 hf.1
          · have := h2 _ hn
            rw [hid] at this
            split at this
            · cases this
            · exact this
        · subst hab
          have := h4 _ hb
          rw [hfr, if_pos ha] at this; cases this
        · rcases List.mem_append.1 hk with hk | hk
          · exact not_contains_iff.1 (hf.2.2 k hk)
          · have := h4 _ hk
            rw [hfr] at this
            split at this
            · cases this
            · exact this
      · rintro ⟨⟨h0, h1⟩, h2, ⟨_, h3, h4⟩, h5⟩
        refine ⟨h1, fun n hn => ?_, h3, fun k hk => ?_⟩
        · rw [hid, if_neg]
          · exact h2 n (List.mem_cons_of_mem _ hn)
          · rintro rfl; exact h0 hn
        · rw [hfr, if_neg]
          · exact h5 k (List.mem_append_right _ hk)
          · intro hk'
            exact h4 k hk' k hk rfl
    · simp only [putAll, hf, if_false]
      constructor
      · rintro ⟨_, h'⟩; cases h'
      · rintro ⟨_, h2, h3, h4⟩
        have hk : entryKeys (e :: es) = (e.id :: e.aliases) ++ entryKeys es := rfl
        rw [hk] at h3 h4
        exact (hf ⟨not_contains_iff.2 (h2 _ (by simp)), (List.nodup_append.1 h3).1,
          fun k hk => not_contains_iff.2 (h4 k (List.mem_append_left _ hk))⟩).elim

/-- Where the contents of the maps come from. -/
structure Stored (es : List (Entry T)) (s s' : St T) : Prop where
  frameIds : ∀ k v, OMap.find s'.frameIds k = some v ↔ OMap.find s.frameIds k = some v ∨ ∃ e ∈ es, e.name = k ∧ e.id = v
  frames : ∀ k v, OMap.find s'.frames k = some v ↔ OMap.find s.frames k = some v ∨ ∃ e ∈ es, k ∈ e.id :: e.aliases ∧ e.name = v
  lookedup : ∀ k v, OMap.find s'.lookedup k = some v ↔ OMap.find s.lookedup k = some v ∨ ∃ e ∈ es, e.name = k ∧ e.looksUp = v
  dynamic : ∀ k v, OMap.find s'.dynamic k = some v ↔ OMap.find s.dynamic k = some v ∨ ∃ e ∈ es, e.name = k ∧ e.dynamic = v
  aliases : ∀ k v, OMap.find s'.aliases k = some v ↔ OMap.find s.aliases k = some v ∨ ∃ e ∈ es, e.id = k ∧ e.aliases = v
  bodyToFrame : ∀ k v, OMap.find s'.bodyToFrame k = some v ↔
    OMap.find s.bodyToFrame k = some v ∨ ∃ e ∈ es, e.name = k ∧ e.transform = some v
  frameToBody : ∀ k v, OMap.find s'.frameToBody k = some v ↔
    OMap.find s.frameToBody k = some v ∨ ∃ e ∈ es, e.name = k ∧ ∃ t, e.transform = some t ∧ v = t⁻¹
  body : s'.body = s.body

omit [Inv T] in
theorem emplace_iff {ν : Type} {m : OMap String ν} (h : OMap.Sorted m) {a : String} (ha : OMap.contains m a = false) (w : ν)
    (k : String) (v : ν) : OMap.find (OMap.emplace m a w) k = some v ↔ OMap.find m k = some v ∨ (a = k ∧ w = v) := by
  rw [OMap.find_emplace h]
  by_cases hk : k = a
  · subst hk
    rw [if_pos rfl, not_contains_iff.1 ha]
    simp
  · rw [if_neg hk]
    constructor
    · exact .inl
    · rintro (h' | ⟨rfl, _⟩)
      · exact h'
      · exact (hk rfl).elim

theorem putAll_stored : ∀ (es : List (Entry T)) {s s' : St T}, MapsInv s → putAll es s = some s' → Stored es s s'
  | [], s, s', _, he => by
    cases he
    constructor <;> simp
  | e :: es, s, s', h, he => by
    simp only [putAll] at he
    split at he
    · rename_i hf
      have ih := putAll_stored es (inv_put h hf) he
      have split_ex : ∀ p : Entry T → Prop, (∃ x ∈ e :: es, p x) ↔ (p e ∨ ∃ x ∈ es, p x) := by simp
      constructor
      · intro k v
        rw [ih.frameIds, split_ex, ← or_assoc]
        refine or_congr_left ?_
        exact emplace_iff h.frameIds hf.1 _ _ _
      · intro k v
        rw [ih.frames, split_ex, ← or_assoc]
        refine or_congr_left ?_
        rw [find_put_frames h hf]
        by_cases hk : k ∈ e.id :: e.aliases
        · rw [if_pos hk, not_contains_iff.1 (hf.2.2 k hk)]
          simp [hk]
        · rw [if_neg hk]
          simp [hk]
      · intro k v
        rw [ih.lookedup, split_ex, ← or_assoc]
        refine or_congr_left ?_
        exact emplace_iff h.lookedup (h.cLookedup _ hf.1) _ _ _
      · intro k v
        rw [ih.dynamic, split_ex, ← or_assoc]
        refine or_congr_left ?_
        exact emplace_iff h.dynamic (h.cDynamic _ hf.1) _ _ _
      · intro k v
        rw [ih.aliases, split_ex, ← or_assoc]
        refine or_congr_left ?_
        exact emplace_iff h.aliases (h.cAliases _ (hf.2.2 _ (by simp))) _ _ _
      · intro k v
        rw [ih.bodyToFrame, split_ex, ← or_assoc]
        refine or_congr_left ?_
        unfold put; dsimp only
        cases ht : e.transform with
        | none => simp
        | some t =>
          rw [emplace_iff h.bodyToFrame (h.cBodyToFrame _ hf.1)]
          simp
      · intro k v
        rw [ih.frameToBody, split_ex, ← or_assoc]
        refine or_congr_left ?_
        unfold put; dsimp only
        cases ht : e.transform with
        | none => simp
        | some t =>
          rw [emplace_iff h.frameToBody (h.cFrameToBody _ hf.1)]
          simp [eq_comm]
      · exact ih.body
    · cases he

variable [Mul T] [One T]

omit [Inv T] in
theorem entryOf_name {tf : TF T} {name : String} {d : NodeData T} {b : Bool} {pre : T} {parentId : String} {e : Entry T}
    (he : entryOf tf name d b pre parentId = some e) : e.name = name ∧ e.id = idOf name d ∧ e.aliases = d.aliases.getD [] := by
  unfold entryOf at he
  split at he
  · split at he
    · cases he
    · rename_i hb
      cases he
      refine ⟨rfl, rfl, ?_⟩
      simp only [Bool.or_eq_true, not_or] at hb
      have : d.aliases = none := by simpa using hb.1.1.1
      rw [this]; rfl
  · obtain ⟨loc, -, rfl⟩ := Option.map_eq_some_iff.1 he
    exact ⟨rfl, rfl, rfl⟩

omit [Inv T] in
/-- The names, ids and aliases of the entries are those of the configuration. -/
theorem flatten_keys (tf : TF T) : ∀ (f : Forest T) (pre : T) (parentId : String) {es : List (Entry T)},
    flatten tf f pre parentId = some es → es.map (·.name) = names f ∧ entryKeys es = ids f := by
  intro f
  induction f with
  | nil => intro pre parentId es h; cases h; exact ⟨rfl, rfl⟩
  | cons name d b children rest ihc ihr =>
    intro pre parentId es h
    unfold flatten at h
    obtain ⟨e, he, h⟩ := Option.bind_eq_some_iff.1 h
    obtain ⟨cs, hcs, h⟩ := Option.bind_eq_some_iff.1 h
    obtain ⟨rs, hrs, h⟩ := Option.bind_eq_some_iff.1 h
    cases h
    obtain ⟨h1, h2, h3⟩ := entryOf_name he
    have hr := ihr _ _ hrs
    have hc : cs.map (·.name) = (if b then names children else []) ∧ entryKeys cs = (if b then ids children else []) := by
      cases ht : e.transform with
      | none =>
        rw [ht] at hcs
        cases hcs
        have hb : b = false := by
          unfold entryOf at he
          split at he
          · split at he
            · cases he
            · rename_i hb
              simp only [Bool.or_eq_true, not_or] at hb
              simpa using hb.2
          · obtain ⟨loc, -, hl⟩ := Option.map_eq_some_iff.1 he
            rw [← hl] at ht
            cases ht
        rw [hb]; exact ⟨rfl, rfl⟩
      | some t =>
        rw [ht] at hcs
        dsimp only at hcs
        split at hcs
        · rename_i hb
          rw [if_pos hb, if_pos hb]
          exact ihc _ _ hcs
        · rename_i hb
          cases hcs
          rw [if_neg hb, if_neg hb]; exact ⟨rfl, rfl⟩
    constructor
    · unfold names
      simp only [List.map_cons, List.map_append, h1, hc.1, hr.1]
    · unfold ids
      have : entryKeys (e :: (cs ++ rs)) = (e.id :: e.aliases) ++ (entryKeys cs ++ entryKeys rs) := by
        simp [entryKeys]
      rw [this, hc.2, hr.2, h2, h3]
      rfl

omit [Inv T] [Mul T] [One T] in
theorem moves_iff {d : NodeData T} : d.dynamic.getD false = true ↔ d.Moves := by
  unfold NodeData.Moves
  cases d.dynamic with
  | none => simp
  | some b => simp

omit [Inv T] [Mul T] [One T] in
theorem looksUp_iff {d : NodeData T} : d.lookupTf.getD false = true ↔ d.LooksUp := by
  unfold NodeData.LooksUp
  cases d.lookupTf with
  | none => simp
  | some b => simp

omit [Inv T] in
/-- The tree can be flattened if and only if it can be used. -/
theorem flatten_iff (tf : TF T) : ∀ (f : Forest T) (pre : T) (parentId : String),
    (∃ es, flatten tf f pre parentId = some es) ↔ Usable tf parentId f := by
  intro f
  induction f with
  | nil => intro pre parentId; simp [flatten, Usable]
  | cons name d b children rest ihc ihr =>
    intro pre parentId
    unfold flatten Usable
    rw [← ihr pre parentId]
    by_cases hm : d.Moves
    · have hd := moves_iff.2 hm
      simp only [hm, forall_true_left, not_true_eq_false, false_implies, true_and]
      constructor
      · rintro ⟨es, h⟩
        obtain ⟨e, he, h⟩ := Option.bind_eq_some_iff.1 h
        obtain ⟨cs, hcs, h⟩ := Option.bind_eq_some_iff.1 h
        obtain ⟨rs, hrs, h⟩ := Option.bind_eq_some_iff.1 h
        refine ⟨?_, rs, hrs⟩
        unfold entryOf at he
        rw [if_pos hd] at he
        split at he
        · cases he
        · rename_i hb
          simp only [Bool.or_eq_true, not_or] at hb
          simpa using (⟨hb.1.1.1, hb.1.1.2, hb.1.2, hb.2⟩ : _ ∧ _ ∧ _ ∧ _)
      · rintro ⟨⟨h1, h2, h3, h4⟩, rs, hrs⟩
        subst h4
        refine ⟨(⟨name, d.frameId.getD name, true, [], false, none⟩ : Entry T) :: ([] ++ rs), ?_⟩
        unfold entryOf
        simp [hd, h1, h2, h3, hrs]
    · have hd : ¬ d.dynamic.getD false = true := fun h => hm (moves_iff.1 h)
      simp only [hm, false_implies, true_and, not_false_eq_true, forall_true_left]
      constructor
      · rintro ⟨es, h⟩
        obtain ⟨e, he, h⟩ := Option.bind_eq_some_iff.1 h
        obtain ⟨cs, hcs, h⟩ := Option.bind_eq_some_iff.1 h
        obtain ⟨rs, hrs, h⟩ := Option.bind_eq_some_iff.1 h
        refine ⟨⟨?_, ?_⟩, rs, hrs⟩
        · intro hl
          unfold entryOf at he
          rw [if_neg hd, if_pos (looksUp_iff.2 hl)] at he
          obtain ⟨loc, hloc, -⟩ := Option.map_eq_some_iff.1 he
          exact ⟨loc, hloc⟩
        · intro hb
          unfold entryOf at he
          rw [if_neg hd] at he
          obtain ⟨loc, hloc, rfl⟩ := Option.map_eq_some_iff.1 he
          dsimp only at hcs
          rw [if_pos hb] at hcs
          exact (ihc _ _).1 ⟨cs, hcs⟩
      · rintro ⟨⟨h1, h2⟩, rs, hrs⟩
        have : ∃ loc, (if d.lookupTf.getD false = true then tf parentId (d.frameId.getD name) 0 else some (d.pose.getD 1)) = some loc := by
          split
          · rename_i hl; exact h1 (looksUp_iff.1 hl)
          · exact ⟨_, rfl⟩
        obtain ⟨loc, hloc⟩ := this
        have hcs : ∃ cs, (if b = true then flatten tf children (pre * loc) (d.frameId.getD name) else some []) = some cs := by
          split
          · rename_i hb; exact (ihc (pre * loc) _).2 (h2 hb)
          · exact ⟨_, rfl⟩
        obtain ⟨cs, hcs⟩ := hcs
        refine ⟨(⟨name, d.frameId.getD name, false, d.aliases.getD [], d.lookupTf.getD false, some (pre * loc)⟩ : Entry T) :: (cs ++ rs), ?_⟩
        unfold entryOf
        simp [hd, hloc, hcs, hrs]

/-- An entry and a frame of the configuration agree; `pre` is the transform at the root of the tree. -/
def Agrees (pre : T) (e : Entry T) (x : Decl T) : Prop :=
  e.name = x.name ∧ e.id = x.id ∧ e.dynamic = x.dynamic ∧ e.aliases = x.aliases ∧ e.looksUp = x.looksUp ∧
    e.transform = if x.dynamic then none else some (x.path.foldl (· * ·) pre)

omit [Inv T] in
theorem foldl_compose (assoc : ∀ a b c : T, a * b * c = a * (b * c)) (mul_one : ∀ a : T, a * 1 = a) :
    ∀ (l : List T) (pre : T), l.foldl (· * ·) pre = pre * compose l
  | [], pre => (mul_one pre).symm
  | t :: l, pre => by
    show l.foldl (· * ·) (pre * t) = pre * (t * compose l)
    rw [foldl_compose assoc mul_one l, assoc]

omit [Inv T] [Mul T] in
theorem local_iff {tf : TF T} {parentId name : String} {d : NodeData T} {t : T} :
    Local tf parentId name d t ↔
      (if d.lookupTf.getD false = true then tf parentId (d.frameId.getD name) 0 else some (d.pose.getD 1)) = some t := by
  by_cases hl : d.LooksUp
  · rw [if_pos (looksUp_iff.2 hl)]
    constructor
    · intro h
      cases h with
      | listener _ h => exact h
      | given h _ => exact (h hl).elim
      | absent h _ => exact (h hl).elim
    · intro h; exact .listener hl h
  · rw [if_neg (fun h => hl (looksUp_iff.1 h))]
    constructor
    · intro h
      cases h with
      | listener h _ => exact (hl h).elim
      | given _ h => rw [h]; rfl
      | absent _ h => rw [h]; rfl
    · intro h
      cases hp : d.pose with
      | none => rw [hp] at h; cases h; exact .absent hl hp
      | some p => rw [hp] at h; cases h; exact .given hl hp

omit [Inv T] [Mul T] [One T] in
theorem looksUp_getD (d : NodeData T) : d.lookupTf.getD false = (d.lookupTf == some true) := by
  cases d.lookupTf with
  | none => rfl
  | some b => cases b <;> rfl

omit [Inv T] in
theorem flatten_declares (tf : TF T) :
    ∀ (f : Forest T) (pre : T) (parentId : String) {es : List (Entry T)}, flatten tf f pre parentId = some es →
      (∀ x, Declares tf parentId f x → ∃ e ∈ es, Agrees pre e x) ∧
      (∀ e ∈ es, ∃ x, Declares tf parentId f x ∧ Agrees pre e x) := by
  intro f
  induction f with
  | nil =>
    intro pre parentId es h
    cases h
    exact ⟨fun x hx => (by cases hx), fun e he => (by cases he)⟩
  | cons name d b children rest ihc ihr =>
    intro pre parentId es h
    unfold flatten at h
    obtain ⟨e, he, h⟩ := Option.bind_eq_some_iff.1 h
    obtain ⟨cs, hcs, h⟩ := Option.bind_eq_some_iff.1 h
    obtain ⟨rs, hrs, h⟩ := Option.bind_eq_some_iff.1 h
    cases h
    obtain ⟨ihr1, ihr2⟩ := ihr _ _ hrs
    unfold entryOf at he
    by_cases hm : d.Moves
    · rw [if_pos (moves_iff.2 hm)] at he
      split at he
      · cases he
      · cases he
        dsimp only at hcs
        cases hcs
        rw [List.nil_append]
        constructor
        · intro x hx
          cases hx with
          | fixed h _ => exact (h hm).elim
          | moving _ => exact ⟨_, List.mem_cons_self .., rfl, rfl, rfl, rfl, rfl, rfl⟩
          | nested hn _ _ => exact (hn hm).elim
          | next h =>
            obtain ⟨e, he, ha⟩ := ihr1 _ h
            exact ⟨e, List.mem_cons_of_mem _ he, ha⟩
        · intro e he
          rcases List.mem_cons.1 he with rfl | he
          · exact ⟨_, .moving hm, rfl, rfl, rfl, rfl, rfl, rfl⟩
          · obtain ⟨x, hx, ha⟩ := ihr2 _ he
            exact ⟨x, .next hx, ha⟩
    · rw [if_neg (fun h => hm (moves_iff.1 h))] at he
      obtain ⟨loc, hloc, rfl⟩ := Option.map_eq_some_iff.1 he
      dsimp only at hcs
      have hown : Agrees pre (⟨name, d.frameId.getD name, false, d.aliases.getD [], d.lookupTf.getD false, some (pre * loc)⟩ : Entry T)
          ⟨name, idOf name d, false, d.aliases.getD [], d.lookupTf == some true, [loc]⟩ := by
        refine ⟨rfl, rfl, rfl, rfl, looksUp_getD d, rfl⟩
      have hstep : ∀ (e : Entry T) (x : Decl T), Agrees (pre * loc) e x ↔ Agrees pre e { x with path := loc :: x.path } := by
        intro e x
        exact Iff.rfl
      constructor
      · intro x hx
        cases hx with
        | fixed _ hl =>
          rw [local_iff, hloc] at hl
          cases hl
          exact ⟨_, List.mem_cons_self .., hown⟩
        | moving h => exact (hm h).elim
        | nested _ hl hx =>
          rw [local_iff, hloc] at hl
          cases hl
          rw [if_pos rfl] at hcs
          obtain ⟨e, he, ha⟩ := (ihc _ _ hcs).1 _ hx
          exact ⟨e, List.mem_cons_of_mem _ (List.mem_append_left _ he), (hstep _ _).1 ha⟩
        | next h =>
          obtain ⟨e, he, ha⟩ := ihr1 _ h
          exact ⟨e, List.mem_cons_of_mem _ (List.mem_append_right _ he), ha⟩
      · intro e he
        rcases List.mem_cons.1 he with rfl | he
        · exact ⟨_, .fixed hm (local_iff.2 hloc), hown⟩
        · rcases List.mem_append.1 he with he | he
          · cases b with
            | false => cases hcs; cases he
            | true =>
              rw [if_pos rfl] at hcs
              obtain ⟨x, hx, ha⟩ := (ihc _ _ hcs).2 _ he
              exact ⟨_, .nested hm (local_iff.2 hloc) hx, (hstep _ _).1 ha⟩
          · obtain ⟨x, hx, ha⟩ := ihr2 _ he
            exact ⟨x, .next hx, ha⟩

/-- The entry of the body frame. -/
def bodyEntry (c : Config T) : Entry T := ⟨c.body, c.id, false, [], false, some 1⟩

/-- State before the frames are read: the body frame, whose inverse transform is given. -/
def bodySt (c : Config T) : St T :=
  ⟨c.body, [(c.body, c.id)], [(c.id, c.body)], [(c.body, false)], [(c.body, false)], [(c.id, [])], [(c.body, 1)], [(c.body, 1)]⟩

omit [Inv T] [Mul T] in
theorem bodySt_inv (c : Config T) : MapsInv (bodySt c) := by
  constructor <;> first
    | exact List.pairwise_singleton _ _
    | (intro k hk; simpa [bodySt, OMap.contains, OMap.find_cons, OMap.find_nil] using hk)

/-- The constructor adds the frames below the body frame to the body frame. -/
theorem create_run (tf : TF T) (c : Config T) :
    (∀ es s', flatten tf c.forest 1 c.id = some es → putAll es (bodySt c) = some s' → create tf c = .ok s') ∧
    ((∀ es s', flatten tf c.forest 1 c.id = some es → putAll es (bodySt c) = some s' → False) → create tf c = .throws) := by
  have hb : build tf c ⟨c.body, [], [], [], [], [], [], []⟩ = processFrames tf c.forest 1 c.body (bodySt c) := by
    unfold build Config.forest
    cases c.frames with
    | none => rfl
    | some f => rfl
  have h := processFrames_run tf c.forest 1 (parent := c.body) (parentId := c.id) (bodySt_inv c)
    (by simp [bodySt, OMap.find_cons])
  unfold create
  rw [hb]
  constructor
  · intro es s' he hp
    rw [h.1 es s' he hp]
  · intro hno
    have := h.2 hno
    unfold Throws at this
    rcases hx : processFrames tf c.forest 1 c.body (bodySt c) with ⟨o, s'⟩
    rw [hx] at this
    cases o <;> simp_all

/-- A constructed object stores the body frame and the entries below it. -/
theorem create_ok {tf : TF T} {c : Config T} {s : St T} (h : create tf c = .ok s) :
    ∃ es, flatten tf c.forest 1 c.id = some es ∧ putAll es (bodySt c) = some s := by
  obtain ⟨h1, h2⟩ := create_run tf c
  by_contra hno
  have : create tf c = .throws := h2 fun es s' he hp => by
    have := h1 es s' he hp
    rw [h] at this
    cases this
    exact hno ⟨es, he, hp⟩
  rw [h] at this
  cases this

variable {good : T → Prop}

theorem compose_good (hL : Laws good) : ∀ {l : List T}, (∀ t ∈ l, good t) → good (compose l)
  | [], _ => hL.good_one
  | _ :: _, h => hL.good_mul (h _ (by simp)) (compose_good hL fun t ht => h t (by simp [ht]))

theorem Laws.eq_inv (hL : Laws good) {a b : T} (hb : good b) (h : a * b = 1) : a = b⁻¹ := by
  rw [← hL.mul_one a, ← hL.mul_inv hb, ← hL.assoc, h, hL.one_mul]

theorem Laws.inv_inv (hL : Laws good) {a : T} (ha : good a) : a⁻¹⁻¹ = a :=
  (hL.eq_inv (hL.good_inv ha) (hL.mul_inv ha)).symm

theorem Laws.one_inv (hL : Laws good) : (1 : T)⁻¹ = 1 := (hL.eq_inv hL.good_one (hL.one_mul 1)).symm

theorem Laws.inv_mul_rev (hL : Laws good) {a b : T} (ha : good a) (hb : good b) : (a⁻¹ * b)⁻¹ = b⁻¹ * a := by
  refine (hL.eq_inv (hL.good_mul (hL.good_inv ha) hb) ?_).symm
  rw [hL.assoc, ← hL.assoc a, hL.mul_inv ha, hL.one_mul, hL.inv_mul hb]

end Serpent.BodyFrames
