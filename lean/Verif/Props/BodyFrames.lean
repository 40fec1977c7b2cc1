import Verif.Lemmas.BodyFramesFlat
import Verif.Lemmas.Quaternion

/-!
# Properties of the frame tree (C36, C37) and of the broadcaster of static transforms (C85)
-/

namespace Serpent

open BodyFrames

variable {T : Type} [Mul T] [One T] [Inv T] {tf : TF T} {c : Config T} {s : St T} {good : T → Prop}

/-! ## C37: names -/

/-- **C37.** The constructor succeeds if and only if the names of all frames are pairwise different, the frame ids and aliases
of all frames are pairwise different, moving frames have nothing that fixes them, and the transforms to be looked up are
available; otherwise it throws. -/
theorem C37_construct_iff :
    ((∃ s, create tf c = .ok s) ↔
      (c.body :: names c.forest).Nodup ∧ (c.id :: ids c.forest).Nodup ∧ Usable tf c.id c.forest) ∧
    ((¬ ∃ s, create tf c = .ok s) → create tf c = .throws) := by
  obtain ⟨h1, h2⟩ := create_run tf c
  have hfind : ∀ k v, OMap.find (bodySt c).frameIds k = some v ↔ k = c.body ∧ v = c.id := by
    intro k v
    by_cases hk : k = c.body
    · simp [bodySt, OMap.find_cons, hk, eq_comm]
    · have : ¬ c.body = k := fun h => hk h.symm
      simp [bodySt, OMap.find_cons, hk]
  have hnone : ∀ k, OMap.find (bodySt c).frameIds k = none ↔ k ≠ c.body := by
    intro k
    by_cases hk : k = c.body
    · simp [bodySt, OMap.find_cons, hk]
    · simp [bodySt, OMap.find_cons, hk]
  have hnone' : ∀ k, OMap.find (bodySt c).frames k = none ↔ k ≠ c.id := by
    intro k
    by_cases hk : k = c.id
    · simp [bodySt, OMap.find_cons, hk]
    · simp [bodySt, OMap.find_cons, hk]
  have hcond : (∃ es s', flatten tf c.forest 1 c.id = some es ∧ putAll es (bodySt c) = some s') ↔
      (c.body :: names c.forest).Nodup ∧ (c.id :: ids c.forest).Nodup ∧ Usable tf c.id c.forest := by
    rw [← flatten_iff tf c.forest 1 c.id, List.nodup_cons, List.nodup_cons]
    constructor
    · rintro ⟨es, s', he, hp⟩
      obtain ⟨k1, k2⟩ := flatten_keys tf _ _ _ he
      obtain ⟨p1, p2, p3, p4⟩ := (putAll_iff es (bodySt_inv c)).1 ⟨s', hp⟩
      rw [k1] at p1 p2
      rw [k2] at p3 p4
      exact ⟨⟨fun h => (hnone _).1 (p2 _ h) rfl, p1⟩, ⟨fun h => (hnone' _).1 (p4 _ h) rfl, p3⟩, es, he⟩
    · rintro ⟨⟨n1, n2⟩, ⟨i1, i2⟩, es, he⟩
      obtain ⟨k1, k2⟩ := flatten_keys tf _ _ _ he
      obtain ⟨s', hp⟩ := (putAll_iff es (bodySt_inv c)).2 (by
        rw [k1, k2]
        exact ⟨n2, fun n hn => (hnone _).2 (by rintro rfl; exact n1 hn), i2,
          fun k hk => (hnone' _).2 (by rintro rfl; exact i1 hk)⟩)
      exact ⟨es, s', he, hp⟩
  refine ⟨?_, fun hno => h2 fun es s' he hp => hno ⟨s', h1 es s' he hp⟩⟩
  rw [← hcond]
  constructor
  · rintro ⟨s, hs⟩
    obtain ⟨es, he, hp⟩ := create_ok hs
    exact ⟨es, s, he, hp⟩
  · rintro ⟨es, s', he, hp⟩
    exact ⟨s', h1 es s' he hp⟩

/-- **C37.** Every configured frame is indexed: by its name, by its id and by each of its aliases. -/
theorem C37_index (h : create tf c = .ok s) {x : Decl T} (hx : c.Has tf x) :
    hasFrame s x.name = true ∧ frameId s x.name = .ok x.id ∧ frame s x.id = .ok x.name ∧
    (∀ a ∈ x.aliases, frame s a = .ok x.name) ∧ aliases s x.id = .ok x.aliases ∧
    isDynamic s x.name = .ok x.dynamic ∧ lookedupTf s x.name = .ok x.looksUp := by
  obtain ⟨es, he, hp⟩ := create_ok h
  have st := putAll_stored es (bodySt_inv c) hp
  have key : OMap.find s.frameIds x.name = some x.id ∧ (∀ k ∈ x.id :: x.aliases, OMap.find s.frames k = some x.name) ∧
      OMap.find s.aliases x.id = some x.aliases ∧ OMap.find s.dynamic x.name = some x.dynamic ∧
      OMap.find s.lookedup x.name = some x.looksUp := by
    cases hx with
    | body =>
      refine ⟨(st.frameIds _ _).2 (.inl ?_), fun k hk => (st.frames _ _).2 (.inl ?_), (st.aliases _ _).2 (.inl ?_),
        (st.dynamic _ _).2 (.inl ?_), (st.lookedup _ _).2 (.inl ?_)⟩
      · simp [bodySt, OMap.find_cons]
      · have : k = c.id := by simpa using hk
        simp [bodySt, OMap.find_cons, this]
      · simp [bodySt, OMap.find_cons]
      · simp [bodySt, OMap.find_cons]
      · simp [bodySt, OMap.find_cons]
    | below hd =>
      obtain ⟨e, hm, a1, a2, a3, a4, a5, a6⟩ := (flatten_declares tf _ _ _ he).1 x hd
      rw [← a1, ← a2, ← a3, ← a4, ← a5]
      exact ⟨(st.frameIds _ _).2 (.inr ⟨e, hm, rfl, rfl⟩), fun k hk => (st.frames _ _).2 (.inr ⟨e, hm, hk, rfl⟩),
        (st.aliases _ _).2 (.inr ⟨e, hm, rfl, rfl⟩), (st.dynamic _ _).2 (.inr ⟨e, hm, rfl, rfl⟩),
        (st.lookedup _ _).2 (.inr ⟨e, hm, rfl, rfl⟩)⟩
  obtain ⟨k1, k2, k3, k4, k5⟩ := key
  refine ⟨?_, ?_, ?_, ?_, ?_, ?_, ?_⟩
  · unfold hasFrame OMap.contains; rw [k1]; rfl
  · unfold frameId at_; rw [k1]
  · unfold frame at_; rw [k2 _ (by simp)]
  · intro a ha; unfold frame at_; rw [k2 a (by simp [ha])]
  · unfold aliases at_; rw [k3]
  · unfold isDynamic at_; rw [k4]
  · unfold lookedupTf at_; rw [k5]

/-- **C37.** Nothing else is indexed: a known name, id or alias belongs to a configured frame; everything else makes the
accessors throw. -/
theorem C37_index_only (h : create tf c = .ok s) :
    (∀ n, hasFrame s n = true ↔ n ∈ c.body :: names c.forest) ∧ (frames s).Perm (c.body :: names c.forest) ∧
    (∀ n, hasFrame s n = true → ∃ x, c.Has tf x ∧ x.name = n) ∧
    (∀ n, hasFrame s n = false → frameId s n = .throws ∧ isDynamic s n = .throws) ∧
    (∀ k n, frame s k = .ok n → ∃ x, c.Has tf x ∧ x.name = n ∧ (k = x.id ∨ k ∈ x.aliases)) ∧
    (∀ k, k ∉ c.id :: ids c.forest → frame s k = .throws) := by
  obtain ⟨es, he, hp⟩ := create_ok h
  have st := putAll_stored es (bodySt_inv c) hp
  have hinv := inv_putAll es (bodySt_inv c) hp
  obtain ⟨k1, k2⟩ := flatten_keys tf _ _ _ he
  have hbody : ∀ k v, OMap.find (bodySt c).frameIds k = some v ↔ k = c.body ∧ v = c.id := by
    intro k v
    by_cases hk : k = c.body
    · simp [bodySt, OMap.find_cons, hk, eq_comm]
    · simp [bodySt, OMap.find_cons, hk]
  have hbodyD : ∀ k v, OMap.find (bodySt c).dynamic k = some v ↔ k = c.body ∧ v = false := by
    intro k v
    by_cases hk : k = c.body
    · simp [bodySt, OMap.find_cons, hk, eq_comm]
    · simp [bodySt, OMap.find_cons, hk]
  have hbodyF : ∀ k v, OMap.find (bodySt c).frames k = some v ↔ k = c.id ∧ v = c.body := by
    intro k v
    by_cases hk : k = c.id
    · simp [bodySt, OMap.find_cons, hk, eq_comm]
    · simp [bodySt, OMap.find_cons, hk]
  have hiff : ∀ n, hasFrame s n = true ↔ n ∈ c.body :: names c.forest := by
    intro n
    unfold hasFrame
    rw [contains_iff, List.mem_cons, ← k1, List.mem_map]
    constructor
    · rintro ⟨v, hv⟩
      rcases (st.frameIds _ _).1 hv with h' | ⟨e, hm, h1, h2⟩
      · exact .inl ((hbody _ _).1 h').1
      · exact .inr ⟨e, hm, h1⟩
    · rintro (rfl | ⟨e, hm, h1⟩)
      · exact ⟨c.id, (st.frameIds _ _).2 (.inl ((hbody _ _).2 ⟨rfl, rfl⟩))⟩
      · exact ⟨e.id, (st.frameIds _ _).2 (.inr ⟨e, hm, h1, rfl⟩)⟩
  refine ⟨hiff, ?_, ?_, ?_, ?_, ?_⟩
  · have hnd : (c.body :: names c.forest).Nodup := (C37_construct_iff.1.1 ⟨s, h⟩).1
    have hnd' : (frames s).Nodup := by
      unfold frames
      rw [List.Nodup, List.pairwise_map]
      exact hinv.frameIds.imp fun hab => ne_of_lt hab
    rw [List.perm_ext_iff_of_nodup hnd' hnd]
    intro n
    rw [← hiff n]
    unfold hasFrame frames
    rw [contains_iff, List.mem_map]
    constructor
    · rintro ⟨⟨k, v⟩, hm, rfl⟩
      exact ⟨v, (OMap.mem_iff_find hinv.frameIds).1 hm⟩
    · rintro ⟨v, hv⟩
      exact ⟨(n, v), OMap.mem_of_find hv, rfl⟩
  · intro n hn
    unfold hasFrame at hn
    obtain ⟨v, hv⟩ := contains_iff.1 hn
    rcases (st.frameIds _ _).1 hv with h' | ⟨e, hm, h1, h2⟩
    · exact ⟨_, .body, ((hbody _ _).1 h').1.symm⟩
    · obtain ⟨x, hx, ha⟩ := (flatten_declares tf _ _ _ he).2 e hm
      exact ⟨x, .below hx, by rw [← ha.1, h1]⟩
  · intro n hn
    have hn' : OMap.find s.frameIds n = none := not_contains_iff.1 hn
    refine ⟨by unfold frameId at_; rw [hn'], ?_⟩
    have : OMap.find s.dynamic n = none := by
      cases hd : OMap.find s.dynamic n with
      | none => rfl
      | some v =>
        exfalso
        have : OMap.find s.frameIds n ≠ none := by
          rcases (st.dynamic _ _).1 hd with h' | ⟨e, hm, h1, h2⟩
          · rw [(st.frameIds n c.id).2 (.inl ((hbody _ _).2 ⟨((hbodyD _ _).1 h').1, rfl⟩))]; simp
          · rw [(st.frameIds n e.id).2 (.inr ⟨e, hm, h1, rfl⟩)]; simp
        exact this hn'
    unfold isDynamic at_; rw [this]
  · intro k n hk
    have hk' : OMap.find s.frames k = some n := by
      unfold frame at_ at hk
      split at hk
      · rename_i v hv; cases hk; exact hv
      · cases hk
    rcases (st.frames _ _).1 hk' with h' | ⟨e, hm, h1, h2⟩
    · obtain ⟨rfl, rfl⟩ := (hbodyF _ _).1 h'
      exact ⟨_, .body, rfl, .inl rfl⟩
    · obtain ⟨x, hx, a1, a2, a3, a4, _⟩ := (flatten_declares tf _ _ _ he).2 e hm
      refine ⟨x, .below hx, by rw [← a1, h2], ?_⟩
      rw [← a2, ← a4]
      exact List.mem_cons.1 h1
  · intro k hk
    unfold frame at_
    cases hf : OMap.find s.frames k with
    | none => rfl
    | some n =>
      exfalso
      apply hk
      rcases (st.frames _ _).1 hf with h' | ⟨e, hm, h1, h2⟩
      · rw [((hbodyF _ _).1 h').1]; simp
      · rw [← k2]
        exact List.mem_cons_of_mem _ (List.mem_flatMap.2 ⟨e, hm, h1⟩)

/-! ## C36: transforms -/

/-- The transforms along the paths of a configuration satisfy `good`. -/
def AllGood (good : T → Prop) (tf : TF T) (c : Config T) : Prop := ∀ x, c.Has tf x → ∀ t ∈ x.path, good t

/-- **C36.** The transform from the body to a static frame is the product of the transforms (configured, or looked up when the
tree was read) along its path, at every time, and the transform back is its inverse. -/
theorem C36_path (hL : Laws good) (h : create tf c = .ok s) {x : Decl T} (hx : c.Has tf x) (hs : x.dynamic = false) (time : Int) :
    bodyToFrame tf s x.name time = .ok (compose x.path) ∧ frameToBody tf s x.name time = .ok (compose x.path)⁻¹ := by
  have hdyn := (C37_index h hx).2.2.2.2.2.1
  rw [hs] at hdyn
  unfold bodyToFrame frameToBody
  rw [hdyn]
  simp only [Outcome.bind_ok, Bool.false_eq_true, if_false]
  obtain ⟨es, he, hp⟩ := create_ok h
  have st := putAll_stored es (bodySt_inv c) hp
  have key : OMap.find s.bodyToFrame x.name = some (compose x.path) ∧ OMap.find s.frameToBody x.name = some (compose x.path)⁻¹ := by
    cases hx with
    | body =>
      refine ⟨(st.bodyToFrame _ _).2 (.inl ?_), (st.frameToBody _ _).2 (.inl ?_)⟩
      · simp [bodySt, OMap.find_cons, compose]
      · simp [bodySt, OMap.find_cons, compose, hL.one_inv]
    | below hd =>
      obtain ⟨e, hm, a1, a2, a3, a4, a5, a6⟩ := (flatten_declares tf _ _ _ he).1 x hd
      rw [hs, foldl_compose hL.assoc hL.mul_one, hL.one_mul] at a6
      rw [← a1]
      exact ⟨(st.bodyToFrame _ _).2 (.inr ⟨e, hm, rfl, a6⟩), (st.frameToBody _ _).2 (.inr ⟨e, hm, rfl, _, a6, rfl⟩)⟩
  unfold at_
  rw [key.1, key.2]
  exact ⟨rfl, rfl⟩

/-- **C36.** Transforms between static frames: the transform of a frame to itself is the identity, the transforms of two frames
to each other are inverse to each other, and transforms compose. They follow from the paths and do not depend on the time
nor on what the listener says later. -/
theorem C36_static_frames (hL : Laws good) (h : create tf c = .ok s) (hg : AllGood good tf c) {x y z : Decl T}
    (hx : c.Has tf x) (hy : c.Has tf y) (hz : c.Has tf z) (sx : x.dynamic = false) (sy : y.dynamic = false)
    (sz : z.dynamic = false) (tf' : TF T) (time : Int) :
    ∃ xy yz : T, frameToFrame tf' s x.name y.name time = .ok xy ∧ frameToFrame tf' s y.name z.name time = .ok yz ∧
      frameToFrame tf' s x.name x.name time = .ok 1 ∧ frameToFrame tf' s y.name x.name time = .ok xy⁻¹ ∧
      frameToFrame tf' s x.name z.name time = .ok (xy * yz) ∧
      xy = (compose x.path)⁻¹ * compose y.path ∧ good xy := by
  have key : ∀ {a b : Decl T}, c.Has tf a → c.Has tf b → a.dynamic = false → b.dynamic = false →
      frameToFrame tf' s a.name b.name time = .ok ((compose a.path)⁻¹ * compose b.path) := by
    intro a b ha hb sa sb
    have da := (C37_index h ha).2.2.2.2.2.1
    have db := (C37_index h hb).2.2.2.2.2.1
    have pa := (C36_path hL h ha sa 0).2
    have pb := (C36_path hL h hb sb 0).1
    unfold frameToBody at pa
    unfold bodyToFrame at pb
    rw [da, sa] at pa
    rw [db, sb] at pb
    unfold frameToFrame frameToBody bodyToFrame
    rw [da, db, sa, sb]
    simp only [Outcome.bind_ok, Bool.false_eq_true, if_false] at pa pb ⊢
    rw [pa, pb]
    rfl
  have gx := compose_good hL (hg x hx)
  have gy := compose_good hL (hg y hy)
  refine ⟨_, _, key hx hy sx sy, key hy hz sy sz, ?_, ?_, ?_, rfl, hL.good_mul (hL.good_inv gx) gy⟩
  · rw [key hx hx sx sx, hL.inv_mul gx]
  · rw [key hy hx sy sx, hL.inv_mul_rev gx gy]
  · rw [key hx hz sx sz]
    congr 1
    rw [hL.assoc, ← hL.assoc (compose y.path), hL.mul_inv gy, hL.one_mul]

/-- The listener knows, at a time, where the frames of the configuration are (`W` maps frame ids to poses in some fixed frame),
and agrees with the configuration about the frames that do not move. -/
structure ListenerAgrees (good : T → Prop) (tf tf' : TF T) (c : Config T) (time : Int) (W : String → T) : Prop where
  good : ∀ x, c.Has tf x → good (W x.id)
  lookup : ∀ x y, c.Has tf x → c.Has tf y → tf' x.id y.id time = some ((W x.id)⁻¹ * W y.id)
  fixed : ∀ x, c.Has tf x → x.dynamic = false → W x.id = W c.id * compose x.path

/-- **C36.** With moving frames: if the listener knows the frames and agrees with the configuration, the transform between any
two frames at that time is the one between their poses, so that it is the identity from a frame to itself, inverse in the
other direction, and composes. -/
theorem C36_moving_frames (hL : Laws good) (h : create tf c = .ok s) (hg : AllGood good tf c) {tf' : TF T} {time : Int}
    {W : String → T} (hW : ListenerAgrees good tf tf' c time W) {x y z : Decl T}
    (hx : c.Has tf x) (hy : c.Has tf y) (hz : c.Has tf z) :
    ∃ xy yz : T, frameToFrame tf' s x.name y.name time = .ok xy ∧ frameToFrame tf' s y.name z.name time = .ok yz ∧
      frameToFrame tf' s x.name x.name time = .ok 1 ∧ frameToFrame tf' s y.name x.name time = .ok xy⁻¹ ∧
      frameToFrame tf' s x.name z.name time = .ok (xy * yz) ∧ xy = (W x.id)⁻¹ * W y.id ∧
      bodyToFrame tf' s x.name time = .ok ((W c.id)⁻¹ * W x.id) ∧ frameToBody tf' s x.name time = .ok ((W x.id)⁻¹ * W c.id) := by
  have hB : c.Has tf ⟨c.body, c.id, false, [], false, []⟩ := .body
  have gB : good (W c.id) := hW.good _ hB
  have hlk : ∀ {a b : Decl T}, c.Has tf a → c.Has tf b →
      lookupTransform tf' s a.name b.name time = .ok ((W a.id)⁻¹ * W b.id) := by
    intro a b ha hb
    have ia := (C37_index h ha).2.1
    have ib := (C37_index h hb).2.1
    unfold frameId at ia ib
    unfold lookupTransform
    rw [ia, ib]
    simp only [Outcome.bind_ok, hW.lookup a b ha hb]
  have hbody : s.body = c.body := by
    obtain ⟨es, he, hp⟩ := create_ok h
    exact (putAll_stored es (bodySt_inv c) hp).body
  have key : ∀ {a b : Decl T}, c.Has tf a → c.Has tf b →
      frameToFrame tf' s a.name b.name time = .ok ((W a.id)⁻¹ * W b.id) := by
    intro a b ha hb
    have da := (C37_index h ha).2.2.2.2.2.1
    have db := (C37_index h hb).2.2.2.2.2.1
    by_cases hd : a.dynamic = false ∧ b.dynamic = false
    · obtain ⟨xy, _, h1, _, _, _, _, h2, _⟩ := C36_static_frames hL h hg ha hb hb hd.1 hd.2 hd.2 tf' time
      rw [h1, h2, hW.fixed a ha hd.1, hW.fixed b hb hd.2]
      congr 1
      have ga := compose_good hL (hg a ha)
      have e : (W c.id * compose a.path)⁻¹ = (compose a.path)⁻¹ * (W c.id)⁻¹ := by
        refine (hL.eq_inv (hL.good_mul gB ga) ?_).symm
        rw [hL.assoc, ← hL.assoc (W c.id)⁻¹, hL.inv_mul gB, hL.one_mul, hL.inv_mul ga]
      rw [e, hL.assoc, ← hL.assoc (W c.id)⁻¹, hL.inv_mul gB, hL.one_mul]
    · unfold frameToFrame
      rw [da, db]
      cases ha' : a.dynamic with
      | true => simpa using hlk ha hb
      | false =>
        cases hb' : b.dynamic with
        | true => simpa using hlk ha hb
        | false => exact (hd ⟨ha', hb'⟩).elim
  have gx := hW.good _ hx
  have gy := hW.good _ hy
  refine ⟨_, _, key hx hy, key hy hz, ?_, ?_, ?_, rfl, ?_, ?_⟩
  · rw [key hx hx, hL.inv_mul gx]
  · rw [key hy hx, hL.inv_mul_rev gx gy]
  · rw [key hx hz]
    congr 1
    rw [hL.assoc, ← hL.assoc (W y.id), hL.mul_inv gy, hL.one_mul]
  · have dx := (C37_index h hx).2.2.2.2.2.1
    cases hxd : x.dynamic with
    | true =>
      unfold bodyToFrame
      rw [dx, hxd, hbody]
      simpa using hlk hB hx
    | false =>
      have := (C36_path hL h hx hxd time).1
      unfold bodyToFrame at this ⊢
      rw [dx, hxd] at this ⊢
      simp only [Outcome.bind_ok, Bool.false_eq_true, if_false] at this ⊢
      rw [this, hW.fixed x hx hxd, ← hL.assoc, hL.inv_mul gB, hL.one_mul]
  · have dx := (C37_index h hx).2.2.2.2.2.1
    cases hxd : x.dynamic with
    | true =>
      unfold frameToBody
      rw [dx, hxd, hbody]
      simpa using hlk hx hB
    | false =>
      have := (C36_path hL h hx hxd time).2
      unfold frameToBody at this ⊢
      rw [dx, hxd] at this ⊢
      simp only [Outcome.bind_ok, Bool.false_eq_true, if_false] at this ⊢
      rw [this, hW.fixed x hx hxd]
      congr 1
      have ga := compose_good hL (hg x hx)
      refine (hL.eq_inv ga ?_).symm
      have e : (W c.id * compose x.path)⁻¹ * W c.id * compose x.path = 1 := by
        rw [hL.assoc, hL.inv_mul (hL.good_mul gB ga)]
      exact e

/-- **C36.** The transform service answers, for frames that do not move, with the transform from the source frame to the target frame
that follows from the configuration, and otherwise with what the listener knows last about it (time 0), between the frame ids of
the two names; if the listener knows nothing, and for names that are not configured, the call fails. -/
theorem C36_service (hL : Laws good) (h : create tf c = .ok s) (tf' : TF T) :
    (∀ x y, c.Has tf x → c.Has tf y → x.dynamic = false → y.dynamic = false →
      lookupCallback tf' s x.name y.name = .ok ((compose x.path)⁻¹ * compose y.path)) ∧
    (∀ x y, c.Has tf x → c.Has tf y → x.dynamic = true ∨ y.dynamic = true →
      lookupCallback tf' s x.name y.name = match tf' x.id y.id 0 with | some t => .ok t | none => .throws) ∧
    (∀ n m, hasFrame s n = false ∨ hasFrame s m = false → lookupCallback tf' s n m = .throws) := by
  unfold lookupCallback
  refine ⟨?_, ?_, ?_⟩
  · intro a b ha hb sa sb
    have da := (C37_index h ha).2.2.2.2.2.1
    have db := (C37_index h hb).2.2.2.2.2.1
    have pa := (C36_path hL h ha sa 0).2
    have pb := (C36_path hL h hb sb 0).1
    unfold frameToBody at pa
    unfold bodyToFrame at pb
    rw [da, sa] at pa
    rw [db, sb] at pb
    unfold frameToFrame frameToBody bodyToFrame
    rw [da, db, sa, sb]
    simp only [Outcome.bind_ok, Bool.false_eq_true, if_false] at pa pb ⊢
    rw [pa, pb]
    rfl
  · intro a b ha hb hd
    have da := (C37_index h ha).2.2.2.2.2.1
    have db := (C37_index h hb).2.2.2.2.2.1
    have ia := (C37_index h ha).2.1
    have ib := (C37_index h hb).2.1
    unfold frameId at ia ib
    unfold frameToFrame lookupTransform
    rw [da, db, ia, ib]
    cases hx : a.dynamic with
    | true =>
      simp only [Outcome.bind_ok, if_true]
      cases tf' a.id b.id 0 <;> rfl
    | false =>
      have hy : b.dynamic = true := by rcases hd with hd | hd <;> simp_all
      rw [hy]
      simp only [Outcome.bind_ok, if_true, Bool.false_eq_true, if_false]
      cases tf' a.id b.id 0 <;> rfl
  · intro n m hnm
    obtain ⟨-, -, hhas, hno, -⟩ := C37_index_only h
    unfold frameToFrame
    by_cases hn : hasFrame s n = false
    · rw [(hno n hn).2]
      rfl
    · have hm : hasFrame s m = false := hnm.resolve_left hn
      obtain ⟨x, hx, rfl⟩ := hhas n (by simpa using hn)
      rw [(C37_index h hx).2.2.2.2.2.1]
      have hm1 := (hno m hm).1
      unfold frameId at hm1
      cases hxd : x.dynamic with
      | true =>
        have ix := (C37_index h hx).2.1
        unfold frameId at ix
        unfold lookupTransform
        simp only [Outcome.bind_ok, if_true, ix, hm1]
        rfl
      | false =>
        rw [(hno m hm).2]
        rfl

/-! ## The transforms of nodes are rigid -/

open EigenExt in
/-- Rigid transforms of space satisfy the laws. -/
theorem rigid_laws : Laws (Rigid : Iso ℝ → Prop) where
  assoc := Iso.mul_assoc
  one_mul := Iso.one_mul
  mul_one := Iso.mul_one
  good_one := Rigid.one
  good_mul := fun ha hb => ha.mul hb
  good_inv := fun ha => ha.inv
  inv_mul := fun ha => ha.inv_mul
  mul_inv := fun ha => ha.mul_inv

open EigenExt in
/-- **C36.** The transform of a configured translation and rotation is rigid for all numbers in the configuration (also if the
quaternion is not normalised, or zero), has the given translation, and the rotation of the normalised quaternion. -/
theorem C36_node_rigid (translation : Option (Option ℝ × Option ℝ × Option ℝ)) (rotation : Option Quat) :
    Rigid (nodeTransform translation rotation) ∧
    (∀ q, rotation = some q → q.Unit → (nodeTransform translation rotation).R = q.toMatrix) ∧
    (rotation = none → (nodeTransform translation rotation).R = 1) ∧
    (∀ x y z, translation = some (some x, some y, some z) → (nodeTransform translation rotation).t = ![x, y, z]) ∧
    (translation = none → (nodeTransform translation rotation).t = 0) := by
  have hnorm : ∀ q : Quat, Rigid (⟨(normalizeQuat q).toMatrix, 0⟩ : Iso ℝ) := by
    intro q
    unfold normalizeQuat
    dsimp only
    split
    · rename_i hz
      have hsq := Real.mul_self_sqrt hz.le
      have hpos := Real.sqrt_pos.2 hz
      set r := Real.sqrt (q.w * q.w + q.x * q.x + q.y * q.y + q.z * q.z) with hr
      have hu : (⟨q.w / r, q.x / r, q.y / r, q.z / r⟩ : Quat).Unit := by
        unfold Quat.Unit
        dsimp only
        have hne : r ≠ 0 := ne_of_gt hpos
        field_simp
        nlinarith [hsq]
      exact ⟨Quat.toMatrix_orthogonal hu, Quat.toMatrix_det hu⟩
    · rename_i hz
      have e : q.w * q.w + q.x * q.x + q.y * q.y + q.z * q.z = 0 := by
        have : 0 ≤ q.w * q.w + q.x * q.x + q.y * q.y + q.z * q.z := by
          nlinarith [mul_self_nonneg q.w, mul_self_nonneg q.x, mul_self_nonneg q.y, mul_self_nonneg q.z]
        exact le_antisymm (not_lt.1 hz) this
      have hw : q.w = 0 := mul_self_eq_zero.1 (by nlinarith [mul_self_nonneg q.w, mul_self_nonneg q.x, mul_self_nonneg q.y, mul_self_nonneg q.z])
      have hx : q.x = 0 := mul_self_eq_zero.1 (by nlinarith [mul_self_nonneg q.w, mul_self_nonneg q.x, mul_self_nonneg q.y, mul_self_nonneg q.z])
      have hy : q.y = 0 := mul_self_eq_zero.1 (by nlinarith [mul_self_nonneg q.w, mul_self_nonneg q.x, mul_self_nonneg q.y, mul_self_nonneg q.z])
      have hz : q.z = 0 := mul_self_eq_zero.1 (by nlinarith [mul_self_nonneg q.w, mul_self_nonneg q.x, mul_self_nonneg q.y, mul_self_nonneg q.z])
      have : q.toMatrix = 1 := by
        unfold Quat.toMatrix
        rw [hw, hx, hy, hz]
        ext i j
        fin_cases i <;> fin_cases j <;> simp
      rw [this]
      exact Rigid.one
  have hunit : ∀ q : Quat, q.Unit → normalizeQuat q = q := by
    intro q hq
    unfold normalizeQuat
    have : q.w * q.w + q.x * q.x + q.y * q.y + q.z * q.z = 1 := by rw [← hq]; ring
    simp [this]
  refine ⟨⟨(hnorm (rotation.getD Quat.id)).orthogonal, (hnorm (rotation.getD Quat.id)).det⟩, ?_, ?_, ?_, ?_⟩
  · rintro q rfl hq
    show (normalizeQuat q).toMatrix = _
    rw [hunit q hq]
  · rintro rfl
    show (normalizeQuat Quat.id).toMatrix = _
    rw [hunit _ Quat.Unit.id, Quat.toMatrix_id]
  · rintro x y z rfl; rfl
  · rintro rfl
    show ![(0 : ℝ), 0, 0] = 0
    ext i; fin_cases i <;> rfl

/-! ## C85: static transforms sent -/

/-- **C85 (partial).** If no frame moves, the broadcaster sends a static transform from the body to each frame of the
configuration that is not looked up, equal to the transform of the frame, and the identity from the id of each frame to each of
its aliases, and nothing else; no frame id is the child of two transforms. Missing: moving frames, see
`C85_fails_moving_frame`. -/
theorem C85_sent_partial (hL : Laws good) (h : create tf c = .ok s) (hst : ∀ x, c.Has tf x → x.dynamic = false) :
    ∃ l, broadcast tf c = .ok l ∧
      (∀ m, m ∈ l ↔ ∃ x, c.Has tf x ∧
        ((x.name ≠ c.body ∧ x.looksUp = false ∧ m = ⟨c.id, x.id, compose x.path⟩) ∨
          ∃ a ∈ x.aliases, m = ⟨x.id, a, 1⟩)) ∧
      (l.map (·.child)).Nodup := by
  have hB : c.Has tf ⟨c.body, c.id, false, [], false, []⟩ := .body
  have hbody : s.body = c.body := by
    obtain ⟨es, he, hp⟩ := create_ok h
    exact (putAll_stored es (bodySt_inv c) hp).body
  have hnames := (C37_index_only h).2.2.1
  have hfr := (C37_index_only h).2.1
  have hbid : bodyFrameId s = .ok c.id := by unfold bodyFrameId; rw [hbody]; exact (C37_index h hB).2.1
  -- frames with the same id are the same
  have hname_of_id : ∀ x, c.Has tf x → x.id = c.id → x.name = c.body := by
    intro x hx hid
    have h1 := (C37_index h hx).2.2.1
    have h2 := (C37_index h hB).2.2.1
    rw [hid, h2] at h1
    exact (Outcome.ok.inj h1).symm
  have hgroup : ∀ x, c.Has tf x → (x.id :: x.aliases).Nodup := by
    obtain ⟨es, he, hp⟩ := create_ok h
    intro x hx
    cases hx with
    | body => simp
    | below hd =>
      obtain ⟨e, hm, a1, a2, a3, a4, _⟩ := (flatten_declares tf _ _ _ he).1 x hd
      have hnd := ((putAll_iff es (bodySt_inv c)).1 ⟨s, hp⟩).2.2.1
      rw [← a2, ← a4]
      exact (List.nodup_flatMap.1 hnd).1 e hm
  have hone : ∀ x, c.Has tf x → ∃ l, sentFrame tf s x.name = .ok l ∧
      (∀ m, m ∈ l ↔ (x.name ≠ c.body ∧ x.looksUp = false ∧ m = ⟨c.id, x.id, compose x.path⟩) ∨
          ∃ a ∈ x.aliases, m = ⟨x.id, a, 1⟩) ∧ (l.map (·.child)).Sublist (x.id :: x.aliases) := by
    intro x hx
    obtain ⟨_, i1, i2, i3, i4, i5, i6⟩ := C37_index h hx
    have hmap : (sentAliases x.id x.aliases : List (Sent T)).map (·.child) = x.aliases := by
      simp [sentAliases, Function.comp_def]
    have hmem : ∀ m : Sent T, m ∈ (sentAliases x.id x.aliases : List (Sent T)) ↔ ∃ a ∈ x.aliases, m = ⟨x.id, a, 1⟩ := by
      intro m
      simp [sentAliases, eq_comm]
    unfold sentFrame
    rw [i1, hbid]
    simp only [Outcome.bind_ok]
    rw [i4]
    by_cases hid : x.id = c.id
    · have hn := hname_of_id x hx hid
      rw [if_pos hid]
      refine ⟨_, rfl, ?_, ?_⟩
      · intro m
        simp [hn, hmem]
      · simp [hmap]
    · have hn : x.name ≠ c.body := by
        intro hn
        have h2 := (C37_index h hB).2.1
        rw [hn, h2] at i1
        exact hid (Outcome.ok.inj i1).symm
      rw [if_neg hid, i6]
      simp only [Outcome.bind_ok]
      cases hl : x.looksUp with
      | true =>
        refine ⟨_, rfl, ?_, ?_⟩
        · intro m
          simp [hmem]
        · simp [hmap]
      | false =>
        simp only [Bool.false_eq_true, if_false]
        rw [(C36_path hL h hx (hst x hx) 0).1]
        refine ⟨_, rfl, ?_, ?_⟩
        · intro m
          simp [hmem, hn]
        · simp [hmap]
  -- the loop
  have hloop : ∀ ns : List String, (∀ n ∈ ns, hasFrame s n = true) → ns.Nodup → ∃ l, sentFrames tf s ns = .ok l ∧
      (∀ m, m ∈ l ↔ ∃ x, c.Has tf x ∧ x.name ∈ ns ∧
        ((x.name ≠ c.body ∧ x.looksUp = false ∧ m = ⟨c.id, x.id, compose x.path⟩) ∨
          ∃ a ∈ x.aliases, m = ⟨x.id, a, 1⟩)) ∧
      (l.map (·.child)).Nodup ∧ ∀ k ∈ l.map (·.child), ∃ n ∈ ns, frame s k = .ok n := by
    intro ns
    induction ns with
    | nil => intro _ _; exact ⟨[], rfl, by simp, by simp, by simp⟩
    | cons n ns ih =>
      intro hall hnd
      rw [List.nodup_cons] at hnd
      obtain ⟨x, hx, hxn⟩ := hnames n (hall n (by simp))
      obtain ⟨l1, e1, m1, s1⟩ := hone x hx
      obtain ⟨l2, e2, m2, n2, k2⟩ := ih (fun n hn => hall n (by simp [hn])) hnd.2
      have hkey : ∀ k ∈ x.id :: x.aliases, frame s k = .ok x.name := by
        intro k hk
        rcases List.mem_cons.1 hk with rfl | hk
        · exact (C37_index h hx).2.2.1
        · exact (C37_index h hx).2.2.2.1 k hk
      subst hxn
      refine ⟨l1 ++ l2, ?_, ?_, ?_, ?_⟩
      · unfold sentFrames
        rw [e1, e2]; rfl
      · intro m
        rw [List.mem_append, m1, m2]
        constructor
        · rintro (hm | ⟨y, hy, hyn, hm⟩)
          · exact ⟨x, hx, by simp, hm⟩
          · exact ⟨y, hy, by simp [hyn], hm⟩
        · rintro ⟨y, hy, hyn, hm⟩
          rcases List.mem_cons.1 hyn with hyx | hyn
          · -- the frame of a name is unique
            left
            have hidx : y.id = x.id ∧ y.aliases = x.aliases ∧ y.looksUp = x.looksUp ∧ compose y.path = compose x.path := by
              obtain ⟨_, i1, _, _, i4, _, i6⟩ := C37_index h hx
              obtain ⟨_, j1, _, _, j4, _, j6⟩ := C37_index h hy
              have p1 := (C36_path hL h hx (hst x hx) 0).1
              have p2 := (C36_path hL h hy (hst y hy) 0).1
              rw [hyx] at j1 j6 p2
              rw [j1] at i1
              have hid : y.id = x.id := Outcome.ok.inj i1
              rw [hid, i4] at j4
              rw [i6] at j6
              rw [p1] at p2
              exact ⟨hid, (Outcome.ok.inj j4).symm, (Outcome.ok.inj j6).symm, (Outcome.ok.inj p2).symm⟩
            rw [hyx, hidx.1, hidx.2.1, hidx.2.2.1, hidx.2.2.2] at hm
            exact hm
          · exact .inr ⟨y, hy, hyn, hm⟩
      · rw [List.map_append, List.nodup_append]
        refine ⟨(hgroup x hx).sublist s1, n2, ?_⟩
        intro a ha b hb hab
        subst hab
        obtain ⟨n', hn', hf⟩ := k2 a hb
        rw [hkey a (s1.subset ha)] at hf
        cases hf
        exact hnd.1 hn'
      · intro k hk
        rw [List.map_append, List.mem_append] at hk
        rcases hk with hk | hk
        · exact ⟨x.name, by simp, hkey k (s1.subset hk)⟩
        · obtain ⟨n', hn', hf⟩ := k2 k hk
          exact ⟨n', by simp [hn'], hf⟩
  have hframes : ∀ n ∈ frames s, hasFrame s n = true := by
    intro n hn
    rw [(C37_index_only h).1]
    exact hfr.mem_iff.1 hn
  have hnd : (frames s).Nodup := hfr.nodup_iff.2 (C37_construct_iff.1.1 ⟨s, h⟩).1
  obtain ⟨l, e1, m1, n1, _⟩ := hloop (frames s) hframes hnd
  refine ⟨l, ?_, ?_, n1⟩
  · unfold broadcast
    rw [h]
    exact e1
  · intro m
    rw [m1]
    constructor
    · rintro ⟨x, hx, _, hm⟩; exact ⟨x, hx, hm⟩
    · rintro ⟨x, hx, hm⟩
      refine ⟨x, hx, ?_, hm⟩
      rw [hfr.mem_iff, ← (C37_index_only h).1]
      exact (C37_index h hx).1

/-! ## Concrete cases -/

namespace BodyFramesWitness

/-- Transforms of a one-dimensional world. -/
structure Shift where
  v : Int
deriving DecidableEq

instance : Mul Shift := ⟨fun a b => ⟨a.v + b.v⟩⟩
instance : One Shift := ⟨⟨0⟩⟩
instance : Inv Shift := ⟨fun a => ⟨-a.v⟩⟩

theorem shift_laws : Laws (fun _ : Shift => True) where
  assoc a b c := congrArg Shift.mk (add_assoc a.v b.v c.v)
  one_mul a := congrArg Shift.mk (zero_add a.v)
  mul_one a := congrArg Shift.mk (add_zero a.v)
  good_one := trivial
  good_mul := fun _ _ => trivial
  good_inv := fun _ => trivial
  inv_mul := fun {a} _ => congrArg Shift.mk (neg_add_cancel a.v)
  mul_inv := fun {a} _ => congrArg Shift.mk (add_neg_cancel a.v)

/-- Where the listener thinks frames are. -/
def world (k : String) : Shift := if k = "base_link" then ⟨100⟩ else if k = "lidar" then ⟨103⟩ else if k = "cam_optical" then ⟨108⟩
  else if k = "arm" then ⟨120⟩ else ⟨107⟩
/-- A listener. -/
def listener : TF Shift := fun a b _ => some ((world a)⁻¹ * world b)
/-- A frame with a given pose. -/
def fixed (v : Int) : NodeData Shift := ⟨none, none, none, none, some ⟨v⟩⟩

/-- A lidar with a nested camera, an antenna that is looked up, and an arm that moves. -/
def tree : Forest Shift :=
  .cons "lidar" { fixed 3 with aliases := some ["velodyne", "os0"] } true
    (.cons "camera" { fixed 5 with frameId := some "cam_optical" } false .nil .nil)
    (.cons "gps" ⟨none, none, none, some true, none⟩ false .nil
      (.cons "arm" ⟨none, some true, none, none, none⟩ false .nil .nil))
/-- Its configuration. -/
def config : Config Shift := ⟨"base", some "base_link", some tree⟩
/-- The object. -/
def st : St Shift := match create listener config with | .ok s => s | _ => ⟨"", [], [], [], [], [], [], []⟩
theorem created : create listener config = .ok st := rfl

-- the constructor succeeds, and the conditions of C37 hold
example : (config.body :: names config.forest).Nodup ∧ (config.id :: ids config.forest).Nodup ∧
    Usable listener config.id config.forest := C37_construct_iff.1.1 ⟨_, created⟩
example : ids config.forest = ["lidar", "velodyne", "os0", "cam_optical", "gps", "arm"] := by decide +kernel

/-- The camera. -/
def camera : Decl Shift := ⟨"camera", "cam_optical", false, [], false, [⟨3⟩, ⟨5⟩]⟩
/-- The lidar. -/
def lidar : Decl Shift := ⟨"lidar", "lidar", false, ["velodyne", "os0"], false, [⟨3⟩]⟩
/-- The antenna. -/
def gps : Decl Shift := ⟨"gps", "gps", false, [], true, [⟨7⟩]⟩
/-- The arm. -/
def arm : Decl Shift := ⟨"arm", "arm", true, [], false, []⟩

theorem has_camera : config.Has listener camera := .below
  (.nested (by simp [NodeData.Moves, fixed]) (.given (by simp [NodeData.LooksUp, fixed]) rfl)
    (.fixed (by simp [NodeData.Moves, fixed]) (.given (by simp [NodeData.LooksUp, fixed]) rfl)))
theorem has_lidar : config.Has listener lidar := .below
  (.fixed (by simp [NodeData.Moves, fixed]) (.given (by simp [NodeData.LooksUp, fixed]) rfl))
theorem has_gps : config.Has listener gps := .below
  (.next (.fixed (by simp [NodeData.Moves]) (.listener rfl rfl)))
theorem has_arm : config.Has listener arm := .below (.next (.next (.moving rfl)))

example := C37_index created has_lidar
example := C37_index_only created
example : frame st "os0" = .ok "lidar" := (C37_index created has_lidar).2.2.2.1 "os0" (by simp [lidar])
-- the camera is at 3 + 5
example : bodyToFrame listener st "camera" 17 = .ok ⟨8⟩ := (C36_path shift_laws created has_camera rfl 17).1
example : lookupCallback listener st "camera" "lidar" = .ok ((compose camera.path)⁻¹ * compose lidar.path) :=
  (C36_service shift_laws created listener).1 _ _ has_camera has_lidar rfl rfl
example := C36_static_frames shift_laws created (fun _ _ _ _ => trivial) has_camera has_gps has_lidar rfl rfl rfl listener 0

theorem listener_agrees : ListenerAgrees (fun _ => True) listener listener config 5 world := by
  refine ⟨fun _ _ => trivial, fun _ _ _ _ => rfl, fun x hx hd => ?_⟩
  cases hx with
  | body => rfl
  | below h =>
    cases h with
    | fixed _ hl => rcases hl with ⟨h, _⟩ | ⟨_, h⟩ | ⟨_, h⟩ <;> cases h; rfl
    | nested _ hl h =>
      rcases hl with ⟨h', _⟩ | ⟨_, h'⟩ | ⟨_, h'⟩ <;> cases h'
      cases h with
      | fixed _ hl => rcases hl with ⟨h, _⟩ | ⟨_, h⟩ | ⟨_, h⟩ <;> cases h; rfl
      | moving h => cases h
      | next h => cases h
    | moving h => cases h
    | next h =>
      cases h with
      | fixed _ hl =>
        cases hl with
        | listener _ h => cases h; rfl
        | given h _ => exact (h rfl).elim
        | absent h _ => exact (h rfl).elim
      | moving h => cases h
      | next h =>
        cases h with
        | fixed h _ => exact (h rfl).elim
        | moving _ => cases hd
        | next h => cases h
example := C36_moving_frames shift_laws created (fun _ _ _ _ => trivial) listener_agrees has_camera has_arm has_lidar

-- a duplicate makes the constructor throw: the alias of one frame is the id of another
example : create listener ⟨"base", none, some (.cons "lidar" { fixed 3 with aliases := some ["imu"] } false .nil
    (.cons "imu" (fixed 5) false .nil .nil))⟩ = .throws :=
  C37_construct_iff.2 (fun h => by
    have := (C37_construct_iff.1.1 h).2.1
    revert this
    decide +kernel)

/-- A configuration without moving frames. -/
def configStatic : Config Shift := ⟨"base", some "base_link", some
  (.cons "lidar" { fixed 3 with aliases := some ["velodyne"] } true
    (.cons "camera" { fixed 5 with frameId := some "cam_optical" } false .nil .nil) .nil)⟩
/-- The object. -/
def stStatic : St Shift := match create listener configStatic with | .ok s => s | _ => ⟨"", [], [], [], [], [], [], []⟩
theorem createdStatic : create listener configStatic = .ok stStatic := rfl

example := C85_sent_partial shift_laws createdStatic (by
  intro x hx
  cases hx with
  | body => rfl
  | below h =>
    cases h with
    | fixed _ _ => rfl
    | nested _ _ h =>
      cases h with
      | fixed _ _ => rfl
      | moving h => cases h
      | next h => cases h
    | moving h => cases h
    | next h => cases h)
example : broadcast listener configStatic =
    .ok [⟨"base_link", "cam_optical", ⟨8⟩⟩, ⟨"base_link", "lidar", ⟨3⟩⟩, ⟨"lidar", "velodyne", ⟨0⟩⟩] := by decide +kernel

/-- A configuration with a moving frame. -/
def configMoving : Config Shift := ⟨"base", none, some (.cons "arm" ⟨none, some true, none, none, none⟩ false .nil .nil)⟩
/-- The arm is at 4 at first, then at 9. -/
def listener1 : TF Shift := fun _ _ _ => some ⟨4⟩
/-- The arm has moved. -/
def listener2 : TF Shift := fun _ _ _ => some ⟨9⟩
/-- The arm is not known yet. -/
def listener0 : TF Shift := fun _ _ _ => none

end BodyFramesWitness

open BodyFramesWitness in
/-- **C85 fails for moving frames.** The transform of a moving frame is looked up once and sent as a static transform: when the
frame has moved, the static transform says otherwise. If the frame is not known when the broadcaster starts, it throws,
although the tree of frames is complete. -/
theorem C85_fails_moving_frame :
    (∃ s l, create listener1 configMoving = .ok s ∧ isDynamic s "arm" = .ok true ∧ broadcast listener1 configMoving = .ok l ∧
      (⟨"base", "arm", ⟨4⟩⟩ : Sent Shift) ∈ l ∧ bodyToFrame listener2 s "arm" 1 = .ok ⟨9⟩) ∧
    ((∃ s, create listener0 configMoving = .ok s) ∧ broadcast listener0 configMoving = .throws) := by
  refine ⟨⟨_, _, rfl, ?_, rfl, ?_, ?_⟩, ⟨_, rfl⟩, ?_⟩
  · decide +kernel
  · decide +kernel
  · decide +kernel
  · decide +kernel

end Serpent
