import Verif.Props.StereoCost
import Mathlib.Data.Rat.Floor

/-!
# C53, C54: matching of keypoints
-/

namespace Serpent

namespace Stereo

open EigenRos (forLoop getAt forLoop_inv forLoop_succ getAt_ok)

variable {K : Type} [Field K] [LinearOrder K] [FloorRing K]

/-! ### The search -/

theorem admissible_iff (m : Matcher K) (inRight : Bool) (other : Image) (kp cand : KeyPoint K) :
    m.admissible inRight other kp cand = true ↔ Candidate m.window m.vertical inRight other kp cand := by
  unfold Matcher.admissible Candidate
  rw [decide_eq_true_iff, within_iff]
  unfold Matcher.topLeft corner
  cases inRight <;> simp

/-- What a search over the positions `pos 0`, `pos 1`, ... has found after `n` steps; the position is `dflt` at first. -/
def Found (pos : Nat → Int) (dflt : Int) (cost : Nat → K → Prop) (max : K) (n : Nat) (s : Search K) : Prop :=
  (s = ⟨max, max, dflt⟩ ∧ ∀ k d, k < n → cost k d → max ≤ d) ∨
  ∃ j : Nat, j < n ∧ s.best = pos j ∧ cost j s.cost ∧ s.cost < max ∧
    (∀ k d, k < n → cost k d → s.cost ≤ d ∧ (k < j → s.cost < d)) ∧
    (∀ k d, k < j → cost k d → s.second ≤ d) ∧ s.cost < s.second ∧
    (s.second = max ∨ ∃ k, k < j ∧ cost k s.second)

omit [Field K] [FloorRing K] in
theorem Found.step {pos : Nat → Int} {dflt : Int} {cost : Nat → K → Prop} {max : K} {n : Nat} {s : Search K} (h : Found pos dflt cost max n s) (c : Option K)
    (hc : ∀ d, cost n d ↔ c = some d) : Found pos dflt cost max (n + 1) (s.update c (pos n)) := by
  cases c with
  | none =>
    have hn : ∀ d, ¬ cost n d := fun d h => by have := (hc d).1 h; simp at this
    show Found pos dflt cost max (n + 1) s
    rcases h with ⟨rfl, h⟩ | ⟨j, hj, hb, h1, h2, h3, h4⟩
    · refine Or.inl ⟨rfl, fun k d hk hd => ?_⟩
      rcases Nat.lt_succ_iff_lt_or_eq.1 hk with hk | rfl
      · exact h k d hk hd
      · exact absurd hd (hn d)
    · refine Or.inr ⟨j, by omega, hb, h1, h2, fun k d hk hd => ?_, h4⟩
      rcases Nat.lt_succ_iff_lt_or_eq.1 hk with hk | rfl
      · exact h3 k d hk hd
      · exact absurd hd (hn d)
  | some c =>
    have hn : cost n c := (hc c).2 rfl
    have hu : ∀ d, cost n d → d = c := fun d h => by have := (hc d).1 h; simpa using this.symm
    unfold Search.update
    dsimp only
    by_cases hlt : c < s.cost
    · rw [if_pos hlt]
      rcases h with ⟨rfl, h⟩ | ⟨j, hj, hb, h1, h2, h3, h4, h5, h6⟩
      · refine Or.inr ⟨n, by omega, rfl, hn, hlt, fun k d hk hd => ?_, fun k d hk hd => h k d hk hd, hlt, Or.inl rfl⟩
        rcases Nat.lt_succ_iff_lt_or_eq.1 hk with hk | rfl
        · have := h k d hk hd
          exact ⟨(hlt.trans_le this).le, fun _ => hlt.trans_le this⟩
        · rw [hu d hd]
          exact ⟨le_rfl, fun h => absurd h (lt_irrefl _)⟩
      · refine Or.inr ⟨n, by omega, rfl, hn, hlt.trans h2, fun k d hk hd => ?_, fun k d hk hd => (h3 k d hk hd).1, hlt,
          Or.inr ⟨j, hj, h1⟩⟩
        rcases Nat.lt_succ_iff_lt_or_eq.1 hk with hk | rfl
        · have := (h3 k d hk hd).1
          exact ⟨(hlt.trans_le this).le, fun _ => hlt.trans_le this⟩
        · rw [hu d hd]
          exact ⟨le_rfl, fun h => absurd h (lt_irrefl _)⟩
    · rw [if_neg hlt]
      have hle := not_lt.1 hlt
      rcases h with ⟨rfl, h⟩ | ⟨j, hj, hb, h1, h2, h3, h4⟩
      · refine Or.inl ⟨rfl, fun k d hk hd => ?_⟩
        rcases Nat.lt_succ_iff_lt_or_eq.1 hk with hk | rfl
        · exact h k d hk hd
        · rw [hu d hd]; exact hle
      · refine Or.inr ⟨j, by omega, hb, h1, h2, fun k d hk hd => ?_, h4⟩
        rcases Nat.lt_succ_iff_lt_or_eq.1 hk with hk | rfl
        · exact h3 k d hk hd
        · rw [hu d hd]; exact ⟨hle, fun h => absurd h (by omega)⟩

omit [Field K] [FloorRing K] in
theorem Found.of_end {pos : Nat → Int} {dflt : Int} {cost : Nat → K → Prop} {max : K} {n : Nat} {s : Search K} (h : Found pos dflt cost max n s)
    (hn : ∀ k d, cost k d → k < n) :
    (s = ⟨max, max, dflt⟩ ∧ ¬ ∃ j c, FirstMin cost max j c) ∨
    ∃ j : Nat, s.best = pos j ∧ FirstMin cost max j s.cost ∧ s.cost < s.second ∧ (∀ k d, k < j → cost k d → s.second ≤ d) ∧
      (s.second = max ∨ ∃ k, k < j ∧ cost k s.second) := by
  rcases h with ⟨rfl, h⟩ | ⟨j, hj, hb, h1, h2, h3, h4, h5, h6⟩
  · refine Or.inl ⟨rfl, ?_⟩
    rintro ⟨j, c, h1, h2, -⟩
    exact absurd (h j c (hn j c h1) h1) (not_le.2 h2)
  · exact Or.inr ⟨j, hb, ⟨h1, h2, fun k d hd => h3 k d (hn k d hd) hd⟩, h5, h4, h6⟩

omit [Field K] [FloorRing K] in
theorem FirstMin.unique {cost : Nat → K → Prop} {max : K} {j k : Nat} {c d : K} (h : FirstMin cost max j c)
    (h' : FirstMin cost max k d) : j = k ∧ c = d := by
  obtain ⟨h1, -, h3⟩ := h
  obtain ⟨g1, -, g3⟩ := h'
  have e : c = d := le_antisymm (h3 k d g1).1 (g3 j c h1).1
  subst e
  refine ⟨?_, rfl⟩
  rcases lt_trichotomy j k with hlt | he | hlt
  · exact absurd ((g3 j c h1).2 hlt) (lt_irrefl _)
  · exact he
  · exact absurd ((h3 k c g1).2 hlt) (lt_irrefl _)

/-- Everything the search tells: the outcome of `keypointIndex` that ended. -/
theorem keypointIndex_cases {m : Matcher K} {kp : KeyPoint K} {search : List (KeyPoint K)} {left right : Image}
    {inRight : Bool} {cost : K} {r : Int × K} (h : m.keypointIndex kp search left right inRight cost = .ok r) :
    (¬ Inside (if inRight then left else right) (corner m.window kp.x kp.y) m.window ∧ r.1 = -1) ∨
    (Inside (if inRight then left else right) (corner m.window kp.x kp.y) m.window ∧
      ∃ f, m.generate (if inRight then left else right) (corner m.window kp.x kp.y) = .ok f ∧
      ∃ s : Search K, r = (if m.filter = .ratioTest ∧ s.rejected m.ratio then -1 else s.best, s.cost) ∧
      Found (fun k => (k : Int)) (-1) (CostAt f m.window m.vertical inRight left right kp search) m.maxCost search.length s) := by
  unfold Matcher.keypointIndex at h
  split at h
  · cases h
  dsimp only at h
  by_cases hw : windowWithinImage (if inRight then left else right) (m.topLeft kp.x kp.y) m.window = false
  · rw [if_pos hw] at h
    refine Or.inl ⟨?_, by rw [← Outcome.ok.inj h]⟩
    intro hi
    rw [show (m.topLeft kp.x kp.y) = corner m.window kp.x kp.y from rfl, within_iff.2 hi] at hw
    cases hw
  · rw [if_neg hw] at h
    rw [Bool.not_eq_false, within_iff] at hw
    refine Or.inr ⟨hw, ?_⟩
    cases hg : m.generate (if inRight then left else right) (m.topLeft kp.x kp.y) with
    | throws => rw [hg] at h; cases h
    | ub => rw [hg] at h; cases h
    | ok f =>
      refine ⟨f, hg, ?_⟩
      rw [hg, Outcome.bind_ok] at h
      generalize hl : forLoop (σ := Search K) search.length _ _ = l at h
      cases l with
      | throws => cases h
      | ub => cases h
      | ok s =>
        rw [Outcome.bind_ok] at h
        refine ⟨s, ?_, ?_⟩
        · split at h
          · rename_i hr; rw [if_pos hr, ← Outcome.ok.inj h]
          · rename_i hr; rw [if_neg hr, ← Outcome.ok.inj h]
        · refine forLoop_ok_inv (σ := Search K)
            (Found (fun k => (k : Int)) (-1) (CostAt f m.window m.vertical inRight left right kp search) m.maxCost) ?_ ?_ hl
          · exact Or.inl ⟨rfl, fun k d hk => absurd hk (Nat.not_lt_zero k)⟩
          · intro i s t hi hf ht
            have hx : search[i]? = some search[i] := by simp [hi]
            rw [getAt_ok hx, Outcome.bind_ok] at ht
            by_cases ha : m.admissible inRight (if inRight then right else left) kp search[i] = true
            · rw [if_pos ha] at ht
              rw [admissible_iff] at ha
              generalize hc : f _ _ _ _ _ = c at ht
              cases c with
              | throws => cases ht
              | ub => cases ht
              | ok c =>
                rw [Outcome.bind_ok] at ht
                rw [← Outcome.ok.inj ht]
                refine hf.step c fun d => ⟨?_, ?_⟩
                · rintro ⟨cand, h1, h2, h3⟩
                  rw [hx] at h1; cases h1
                  have := hc.symm.trans h3
                  simpa using this
                · rintro rfl
                  exact ⟨_, hx, ha, hc⟩
            · rw [if_neg ha] at ht
              rw [admissible_iff] at ha
              rw [← Outcome.ok.inj ht]
              refine hf.step none fun d => ⟨?_, by simp⟩
              rintro ⟨cand, h1, h2, h3⟩
              rw [hx] at h1; cases h1
              exact absurd h2 ha

omit [LinearOrder K] [FloorRing K] [Field K] in
theorem lt_of_some {search : List (KeyPoint K)} {k : Nat} {c : KeyPoint K} (h : search[k]? = some c) : k < search.length :=
  (List.getElem?_eq_some_iff.1 h).1

/-- C53. Without the ratio test, index `j` is returned exactly if the keypoint at `j` is the best match, with its cost. -/
theorem C53_best (m : Matcher K) (kp : KeyPoint K) (search : List (KeyPoint K)) (left right : Image) (inRight : Bool)
    (cost : K) (r : Int × K) (hm : m.filter ≠ .ratioTest)
    (h : m.keypointIndex kp search left right inRight cost = .ok r) :
    (∀ j : Nat, r.1 = j ↔ ∃ c, Best m inRight left right kp search j c) ∧
    (∀ (j : Nat) (c : K), Best m inRight left right kp search j c → r = ((j : Int), c)) ∧
    (r.1 = -1 ↔ ¬ ∃ j c, Best m inRight left right kp search j c) ∧
    (r.1 = -1 ∨ ∃ j : Nat, r.1 = j ∧ j < search.length) := by
  rcases keypointIndex_cases h with ⟨h1, h2⟩ | ⟨h1, f, hf, s, hr, hs⟩
  · refine ⟨fun j => ⟨fun e => ?_, fun ⟨c, hb⟩ => absurd hb.1 h1⟩, fun j c hb => absurd hb.1 h1,
      ⟨fun _ ⟨j, c, hb⟩ => h1 hb.1, fun _ => h2⟩, Or.inl h2⟩
    rw [h2] at e; omega
  · rw [if_neg (fun hh => hm hh.1)] at hr
    subst hr
    have key : ∀ j c, Best m inRight left right kp search j c ↔
        FirstMin (CostAt f m.window m.vertical inRight left right kp search) m.maxCost j c := by
      intro j c
      constructor
      · rintro ⟨-, f', hf', hb⟩
        rw [hf] at hf'
        rwa [Outcome.ok.inj hf']
      · intro hb
        exact ⟨h1, f, hf, hb⟩
    rcases hs.of_end (fun k d hd => lt_of_some hd.choose_spec.1) with ⟨rfl, hn⟩ | ⟨j, hj, hmin, -⟩
    · refine ⟨fun j => ⟨fun e => ?_, fun ⟨c, hb⟩ => absurd ⟨j, c, (key j c).1 hb⟩ hn⟩,
        fun j c hb => absurd ⟨j, c, (key j c).1 hb⟩ hn,
        ⟨fun _ ⟨j, c, hb⟩ => hn ⟨j, c, (key j c).1 hb⟩, fun _ => rfl⟩, Or.inl rfl⟩
      exfalso; simp only at e; omega
    · refine ⟨fun k => ⟨fun e => ?_, fun ⟨c, hb⟩ => ?_⟩, fun k c hb => ?_, ⟨fun e => ?_, fun e => ?_⟩, Or.inr ⟨j, hj, ?_⟩⟩
      · have : j = k := by simp only at e; omega
        subst this
        exact ⟨_, (key _ _).2 hmin⟩
      · obtain ⟨rfl, -⟩ := hmin.unique ((key k c).1 hb)
        exact hj
      · obtain ⟨rfl, rfl⟩ := hmin.unique ((key k c).1 hb)
        rw [hj]
      · simp only at e; omega
      · exact absurd ⟨j, _, (key _ _).2 hmin⟩ e
      · exact lt_of_some hmin.1.choose_spec.1

/-- C53, ratio test, for costs that are not negative: if index `j` is returned it is the best match, and its cost is at most
the ratio times the cost of every candidate before it in the list. Missing: the candidates after it (the code compares with
the previous minimum of the loop, not with the second best cost), see `C53_fails_ratio`. -/
theorem C53_ratio_partial [IsStrictOrderedRing K] (m : Matcher K) (kp : KeyPoint K) (search : List (KeyPoint K))
    (left right : Image) (inRight : Bool) (cost : K) (j : Nat) (c : K) (hm : m.filter = .ratioTest) (hr0 : 0 < m.ratio)
    (h : m.keypointIndex kp search left right inRight cost = .ok ((j : Int), c)) (hc : 0 ≤ c) :
    Best m inRight left right kp search j c ∧
    ∃ f, m.generate (if inRight then left else right) (corner m.window kp.x kp.y) = .ok f ∧
      ∀ k d, k < j → CostAt f m.window m.vertical inRight left right kp search k d → c ≤ m.ratio * d := by
  rcases keypointIndex_cases h with ⟨h1, h2⟩ | ⟨h1, f, hf, s, hr, hs⟩
  · simp only at h2; omega
  · rw [Prod.mk.injEq] at hr
    obtain ⟨e1, rfl⟩ := hr
    split at e1
    · omega
    rename_i hrej
    rcases hs.of_end (fun k d hd => lt_of_some hd.choose_spec.1) with ⟨rfl, hn⟩ | ⟨j', hj, hmin, hlt, hsec, -⟩
    · simp only at e1; omega
    · have : j' = j := by omega
      subst this
      refine ⟨⟨h1, f, hf, hmin⟩, f, hf, fun k d hk hd => ?_⟩
      have hle : s.cost / s.second ≤ m.ratio := by
        by_contra hcon
        exact hrej ⟨hm, not_le.1 hcon⟩
      have hpos : 0 < s.second := lt_of_le_of_lt hc hlt
      rw [div_le_iff₀ hpos] at hle
      exact hle.trans (mul_le_mul_of_nonneg_left (hsec k d hk hd) hr0.le)

/-- C53, ratio test: which best matches are refused. With costs that are not negative, the best match `j` is refused only if
its cost exceeds the ratio times the cost of an earlier candidate, or times the largest number. -/
theorem C53_ratio_refused_partial [IsStrictOrderedRing K] (m : Matcher K) (kp : KeyPoint K) (search : List (KeyPoint K))
    (left right : Image) (inRight : Bool) (cost : K) (j : Nat) (c c' : K)
    (h : m.keypointIndex kp search left right inRight cost = .ok (-1, c'))
    (hb : Best m inRight left right kp search j c) (hc : 0 ≤ c) :
    m.filter = .ratioTest ∧ c' = c ∧ (m.ratio * m.maxCost < c ∨
    ∃ f k d, m.generate (if inRight then left else right) (corner m.window kp.x kp.y) = .ok f ∧ k < j ∧
      CostAt f m.window m.vertical inRight left right kp search k d ∧ m.ratio * d < c) := by
  obtain ⟨b1, f', hf', hb⟩ := hb
  rcases keypointIndex_cases h with ⟨h1, h2⟩ | ⟨h1, f, hf, s, hr, hs⟩
  · exact absurd b1 h1
  · rw [hf] at hf'
    rw [← Outcome.ok.inj hf'] at hb
    rw [Prod.mk.injEq] at hr
    obtain ⟨e1, rfl⟩ := hr
    rcases hs.of_end (fun k d hd => lt_of_some hd.choose_spec.1) with ⟨rfl, hn⟩ | ⟨j', hj, hmin, hlt, hsec, hsec'⟩
    · exact absurd ⟨j, c, hb⟩ hn
    · obtain ⟨rfl, rfl⟩ := hmin.unique hb
      split at e1
      · rename_i hrej
        have hpos : 0 < s.second := lt_of_le_of_lt hc hlt
        have := hrej.2
        unfold Search.rejected at this
        rw [gt_iff_lt, lt_div_iff₀ hpos] at this
        refine ⟨hrej.1, rfl, ?_⟩
        rcases hsec' with e | ⟨k, hk, hd⟩
        · exact Or.inl (by rwa [e] at this)
        · exact Or.inr ⟨f, k, _, hf, hk, hd, this⟩
      · omega

/-- C53. The search ends for every list of keypoints if the images have the same size and the cost function is defined for
windows inside of the images. -/
theorem C53_total (m : Matcher K) (kp : KeyPoint K) (search : List (KeyPoint K)) (left right : Image) (inRight : Bool)
    (cost : K) (hs : left.rows = right.rows ∧ left.cols = right.cols)
    (hg : ∀ image t, image = left ∨ image = right → Inside image t m.window → ∃ f, m.generate image t = .ok f ∧
      ∀ i1 i2 t1 t2, (i1 = left ∨ i1 = right) → (i2 = left ∨ i2 = right) → Inside i1 t1 m.window → Inside i2 t2 m.window →
        ∃ c, f i1 i2 t1 t2 m.window = .ok c) :
    ∃ r, m.keypointIndex kp search left right inRight cost = .ok r := by
  unfold Matcher.keypointIndex
  rw [if_neg (by rw [hs.1, hs.2]; simp)]
  dsimp only
  by_cases hw : windowWithinImage (if inRight then left else right) (m.topLeft kp.x kp.y) m.window = false
  · rw [if_pos hw]; exact ⟨_, rfl⟩
  rw [if_neg hw]
  rw [Bool.not_eq_false, within_iff] at hw
  obtain ⟨f, hf, hd⟩ := hg _ _ (by cases inRight <;> simp) hw
  rw [hf, Outcome.bind_ok]
  obtain ⟨s, hs, -⟩ := forLoop_inv (σ := Search K) (fun _ _ => True) (n := search.length)
    (body := fun i s => getAt search i >>= fun cand =>
      if m.admissible inRight (if inRight then right else left) kp cand = true then
        f (if inRight then left else right) (if inRight then right else left) (m.topLeft kp.x kp.y)
          (m.topLeft cand.x cand.y) m.window >>= fun c => .ok (s.update c i)
      else .ok s) (s := ⟨m.maxCost, m.maxCost, -1⟩) trivial (by
    intro i s hi _
    rw [getAt_ok (show search[i]? = some search[i] by simp [hi]), Outcome.bind_ok]
    by_cases ha : m.admissible inRight (if inRight then right else left) kp search[i] = true
    · rw [if_pos ha]
      rw [admissible_iff] at ha
      obtain ⟨c, hc⟩ := hd _ _ _ _ (by cases inRight <;> simp) (by cases inRight <;> simp) hw ha.2.2
      exact ⟨s.update c i, by rw [show m.topLeft = corner m.window from rfl] at *; rw [hc]; rfl, trivial⟩
    · rw [if_neg ha]; exact ⟨s, rfl, trivial⟩)
  rw [hs, Outcome.bind_ok]
  split
  · exact ⟨_, rfl⟩
  · exact ⟨_, rfl⟩

/-! ### All keypoints -/

theorem keypointIndices_spec {m : Matcher K} {leftKps rightKps : List (KeyPoint K)} {left right : Image} {inRight : Bool}
    {idx : List Int} {costs : List K} (h : m.keypointIndices leftKps rightKps left right inRight = .ok (idx, costs)) :
    idx.length = (if inRight then leftKps else rightKps).length ∧ costs.length = idx.length ∧
    ∀ (i : Nat) (kp : KeyPoint K), (if inRight then leftKps else rightKps)[i]? = some kp →
      ∃ r, m.keypointIndex kp (if inRight then rightKps else leftKps) left right inRight 0 = .ok r ∧ costs[i]? = some r.2 ∧
        ((m.filter = .bidirectional ∧ r.1 ≠ -1 → ∃ other back, At (if inRight then rightKps else leftKps) r.1 other ∧
            m.keypointIndex other (if inRight then leftKps else rightKps) left right (!inRight) 0 = .ok back ∧
            idx[i]? = some (if back.1 = i then r.1 else -1)) ∧
          (¬ (m.filter = .bidirectional ∧ r.1 ≠ -1) → idx[i]? = some r.1)) := by
  unfold Matcher.keypointIndices at h
  dsimp only at h
  generalize hk : (if inRight then leftKps else rightKps) = kps at *
  generalize ho : (if inRight then rightKps else leftKps) = others at *
  have := forLoop_ok_inv (σ := List Int × List K) (fun n s => s.1.length = n ∧ s.2.length = n ∧
    ∀ (i : Nat) (kp : KeyPoint K), i < n → kps[i]? = some kp →
      ∃ r, m.keypointIndex kp others left right inRight 0 = .ok r ∧ s.2[i]? = some r.2 ∧
        ((m.filter = .bidirectional ∧ r.1 ≠ -1 → ∃ other back, At others r.1 other ∧
            m.keypointIndex other kps left right (!inRight) 0 = .ok back ∧
            s.1[i]? = some (if back.1 = i then r.1 else -1)) ∧
          (¬ (m.filter = .bidirectional ∧ r.1 ≠ -1) → s.1[i]? = some r.1))) ?_ ?_ h
  · obtain ⟨h1, h2, h3⟩ := this
    exact ⟨h1, by simp only at h1 h2; omega, fun i kp hkp => h3 i kp (lt_of_some hkp) hkp⟩
  · exact ⟨rfl, rfl, fun i kp hi => absurd hi (Nat.not_lt_zero i)⟩
  · rintro n ⟨a, b⟩ t hn ⟨h1, h2, h3⟩ ht
    simp only at h1 h2 h3
    have hx : kps[n]? = some kps[n] := by simp [hn]
    rw [getAt_ok hx, Outcome.bind_ok] at ht
    cases hr : m.keypointIndex kps[n] others left right inRight 0 with
    | throws => rw [hr] at ht; cases ht
    | ub => rw [hr] at ht; cases ht
    | ok r =>
      rw [hr, Outcome.bind_ok] at ht
      -- the new entries
      have main : ∃ v, t = (a ++ [v], b ++ [r.2]) ∧
          ((m.filter = .bidirectional ∧ r.1 ≠ -1 → ∃ other back, At others r.1 other ∧
            m.keypointIndex other kps left right (!inRight) 0 = .ok back ∧ v = (if back.1 = n then r.1 else -1)) ∧
          (¬ (m.filter = .bidirectional ∧ r.1 ≠ -1) → v = r.1)) := by
        split at ht
        · rename_i hb
          cases ho' : indexInt others r.1 with
          | throws => rw [ho'] at ht; cases ht
          | ub => rw [ho'] at ht; cases ht
          | ok other =>
            have hat : At others r.1 other := by
              unfold indexInt at ho'
              split at ho'
              · cases ho'
              · rename_i hneg
                refine ⟨by omega, ?_⟩
                cases hg : others[r.1.toNat]? with
                | none => rw [hg] at ho'; cases ho'
                | some y => rw [hg] at ho'; rw [Outcome.ok.inj ho']
            rw [ho', Outcome.bind_ok] at ht
            cases hbk : m.keypointIndex other kps left right (!inRight) 0 with
            | throws => rw [hbk] at ht; cases ht
            | ub => rw [hbk] at ht; cases ht
            | ok back =>
              rw [hbk, Outcome.bind_ok] at ht
              split at ht
              · rename_i hne
                exact ⟨-1, (Outcome.ok.inj ht).symm, fun _ => ⟨other, back, hat, hbk, by rw [if_neg hne]⟩,
                  fun hh => absurd hb hh⟩
              · rename_i he
                exact ⟨r.1, (Outcome.ok.inj ht).symm, fun _ => ⟨other, back, hat, hbk, by rw [if_pos (not_not.1 he)]⟩,
                  fun hh => absurd hb hh⟩
        · rename_i hb
          exact ⟨r.1, (Outcome.ok.inj ht).symm, fun hh => absurd hh hb, fun _ => rfl⟩
      obtain ⟨v, rfl, hv1, hv2⟩ := main
      refine ⟨by simp [h1], by simp [h2], fun i kp hi hkp => ?_⟩
      rcases Nat.lt_succ_iff_lt_or_eq.1 hi with hi | rfl
      · obtain ⟨r', q1, q2, q3⟩ := h3 i kp hi hkp
        refine ⟨r', q1, ?_, ?_⟩
        · simp only; rw [List.getElem?_append_left (by omega)]; exact q2
        · simp only; rw [List.getElem?_append_left (by omega)]; exact q3
      · rw [hx] at hkp; cases hkp
        refine ⟨r, hr, ?_, ?_⟩
        · simp only; rw [List.getElem?_append_right (by omega), h2]; simp
        · simp only; rw [List.getElem?_append_right (by omega), h1]
          refine ⟨fun hb => ?_, fun hb => ?_⟩
          · obtain ⟨other, back, w1, w2, w3⟩ := hv1 hb
            exact ⟨other, back, w1, w2, by simp [w3]⟩
          · simp [hv2 hb]

theorem keypointIndex_range {m : Matcher K} {kp : KeyPoint K} {search : List (KeyPoint K)} {left right : Image}
    {inRight : Bool} {cost : K} {r : Int × K} (h : m.keypointIndex kp search left right inRight cost = .ok r) :
    r.1 = -1 ∨ ∃ j : Nat, r.1 = j ∧ j < search.length := by
  rcases keypointIndex_cases h with ⟨-, h2⟩ | ⟨-, f, -, s, hr, hs⟩
  · exact Or.inl h2
  · subst hr
    dsimp only
    split
    · exact Or.inl rfl
    · rcases hs.of_end (fun k d hd => lt_of_some hd.choose_spec.1) with ⟨rfl, -⟩ | ⟨j, hj, hmin, -⟩
      · exact Or.inl rfl
      · exact Or.inr ⟨j, hj, lt_of_some hmin.1.choose_spec.1⟩

/-- C53 and C54, lengths: there is one index and one cost per keypoint, an index is -1 or refers to a keypoint of the other
image. -/
theorem C54_lengths (m : Matcher K) (leftKps rightKps : List (KeyPoint K)) (left right : Image) (idx : List Int)
    (costs : List K) (h : m.keypointIndices leftKps rightKps left right true = .ok (idx, costs)) :
    idx.length = leftKps.length ∧ costs.length = leftKps.length ∧
    ∀ i ∈ idx, i = -1 ∨ ∃ j : Nat, i = j ∧ j < rightKps.length := by
  obtain ⟨h1, h2, h3⟩ := keypointIndices_spec h
  simp only [if_true] at h1 h2 h3
  refine ⟨h1, by omega, fun v hv => ?_⟩
  obtain ⟨i, hi, rfl⟩ := List.getElem_of_mem hv
  have hkp : leftKps[i]? = some (leftKps[i]'(by omega)) := by rw [List.getElem?_eq_some_iff]; exact ⟨by omega, rfl⟩
  obtain ⟨r, hr, -, hr1, hr2⟩ := h3 i _ hkp
  have hb := keypointIndex_range hr
  by_cases hbi : m.filter = .bidirectional ∧ r.1 ≠ -1
  · obtain ⟨other, back, -, -, e⟩ := hr1 hbi
    rw [List.getElem?_eq_some_iff] at e
    obtain ⟨_, e⟩ := e
    rw [e]
    split
    · exact hb
    · exact Or.inl rfl
  · have e := hr2 hbi
    rw [List.getElem?_eq_some_iff] at e
    obtain ⟨_, e⟩ := e
    rw [e]
    exact hb

/-- C53, all keypoints with the unidirectional filter: index `j` is reported for keypoint `i` exactly if it is its best match,
with the cost of that match. -/
theorem C53_indices (m : Matcher K) (leftKps rightKps : List (KeyPoint K)) (left right : Image) (inRight : Bool)
    (idx : List Int) (costs : List K) (hm : m.filter = .unidirectional)
    (h : m.keypointIndices leftKps rightKps left right inRight = .ok (idx, costs)) (i j : Nat) :
    idx[i]? = some (j : Int) ↔ ∃ kp c, (if inRight then leftKps else rightKps)[i]? = some kp ∧ costs[i]? = some c ∧
      Best m inRight left right kp (if inRight then rightKps else leftKps) j c := by
  obtain ⟨h1, h2, h3⟩ := keypointIndices_spec h
  constructor
  · intro hi
    have hlt : i < idx.length := (List.getElem?_eq_some_iff.1 hi).1
    obtain ⟨kp, hkp⟩ : ∃ kp, (if inRight then leftKps else rightKps)[i]? = some kp :=
      ⟨_, List.getElem?_eq_getElem (by omega)⟩
    obtain ⟨r, hr, hc, -, hr2⟩ := h3 i kp hkp
    have e := hr2 (by rw [hm]; simp)
    rw [hi, Option.some_inj] at e
    obtain ⟨b1, b2, -⟩ := C53_best m _ _ _ _ _ _ _ (by rw [hm]; simp) hr
    obtain ⟨c, hb⟩ := (b1 j).1 e.symm
    have := b2 j c hb
    exact ⟨kp, c, hkp, by rw [hc, this], hb⟩
  · rintro ⟨kp, c, hkp, hc, hb⟩
    obtain ⟨r, hr, hc', -, hr2⟩ := h3 i kp hkp
    have e := hr2 (by rw [hm]; simp)
    rw [e, (C53_best m _ _ _ _ _ _ _ (by rw [hm]; simp) hr).2.1 j c hb]

/-- C54. With the bidirectional filter, index `j` is reported for keypoint `i` exactly if `j` is the best match of `i` and
`i` is the best match of `j`. -/
theorem C54_mutual (m : Matcher K) (leftKps rightKps : List (KeyPoint K)) (left right : Image)
    (idx : List Int) (costs : List K) (hm : m.filter = .bidirectional)
    (h : m.keypointIndices leftKps rightKps left right true = .ok (idx, costs)) (i j : Nat) :
    idx[i]? = some (j : Int) ↔ ∃ l r c c', leftKps[i]? = some l ∧ rightKps[j]? = some r ∧ costs[i]? = some c ∧
      Best m true left right l rightKps j c ∧ Best m false left right r leftKps i c' := by
  obtain ⟨h1, h2, h3⟩ := keypointIndices_spec h
  simp only [if_true] at h1 h2 h3
  have hm' : m.filter ≠ .ratioTest := by rw [hm]; simp
  constructor
  · intro hi
    have hlt : i < idx.length := (List.getElem?_eq_some_iff.1 hi).1
    obtain ⟨kp, hkp⟩ : ∃ kp, leftKps[i]? = some kp := ⟨_, List.getElem?_eq_getElem (by omega)⟩
    obtain ⟨r, hr, hc, hr1, hr2⟩ := h3 i kp hkp
    obtain ⟨b1, b2, -⟩ := C53_best m _ _ _ _ _ _ _ hm' hr
    by_cases hn : r.1 = -1
    · have e := hr2 (fun hh => hh.2 hn)
      rw [hi, Option.some_inj, hn] at e; omega
    · obtain ⟨other, back, hat, hbk, e⟩ := hr1 ⟨hm, hn⟩
      rw [hi, Option.some_inj] at e
      split at e
      · rename_i hback
        obtain ⟨c, hb⟩ := (b1 j).1 e.symm
        obtain ⟨c', hb'⟩ := ((C53_best m _ _ _ _ _ _ _ hm' hbk).1 i).1 hback
        rw [← e] at hat
        exact ⟨kp, other, c, c', hkp, by simpa using hat.2, by rw [hc, b2 j c hb], hb, hb'⟩
      · omega
  · rintro ⟨l, o, c, c', hl, ho, hc, hb, hb'⟩
    obtain ⟨r, hr, hc', hr1, -⟩ := h3 i l hl
    have e := (C53_best m _ _ _ _ _ _ _ hm' hr).2.1 j c hb
    subst e
    obtain ⟨other, back, hat, hbk, e⟩ := hr1 ⟨hm, by simp⟩
    have : other = o := hat.unique ⟨by simp, by simpa using ho⟩
    subst this
    rw [e, (C53_best m _ _ _ _ _ _ _ hm' hbk).2.1 i c' hb', if_pos rfl]

/-- C54. With the bidirectional filter no keypoint of the right image is matched to two keypoints of the left image. -/
theorem C54_injective (m : Matcher K) (leftKps rightKps : List (KeyPoint K)) (left right : Image)
    (idx : List Int) (costs : List K) (hm : m.filter = .bidirectional)
    (h : m.keypointIndices leftKps rightKps left right true = .ok (idx, costs)) (i k : Nat) (j : Int) (hj : j ≠ -1)
    (hi : idx[i]? = some j) (hk : idx[k]? = some j) : i = k := by
  obtain ⟨n, rfl, -⟩ := ((C54_lengths m _ _ _ _ _ _ h).2.2 j (List.mem_of_getElem? hi)).resolve_left hj
  obtain ⟨l, r, c, c', h1, h2, -, h4, h5⟩ := (C54_mutual m _ _ _ _ _ _ hm h i n).1 hi
  obtain ⟨l', r', d, d', g1, g2, -, g4, g5⟩ := (C54_mutual m _ _ _ _ _ _ hm h k n).1 hk
  rw [h2] at g2
  cases g2
  obtain ⟨-, f, hf, hmin⟩ := h5
  obtain ⟨-, f', hf', hmin'⟩ := g5
  rw [hf] at hf'
  cases Outcome.ok.inj hf'
  exact (hmin.unique hmin').1

/-- C53, C54: for the matchers with the sums of absolute and squared differences, 8 bit images of the same size, and all lists
of keypoints, matching ends. -/
theorem C54_total (m : Matcher K) (leftKps rightKps : List (KeyPoint K)) (left right : Image) (inRight : Bool)
    (hgen : m.generate = generateSad ∨ m.generate = generateSsd)
    (hs : left.rows = right.rows ∧ left.cols = right.cols) (u1 : left.is8U = true) (u2 : right.is8U = true) :
    ∃ idx costs, m.keypointIndices leftKps rightKps left right inRight = .ok (idx, costs) := by
  have hg : ∀ image t, image = left ∨ image = right → Inside image t m.window → ∃ f, m.generate image t = .ok f ∧
      ∀ i1 i2 t1 t2, (i1 = left ∨ i1 = right) → (i2 = left ∨ i2 = right) → Inside i1 t1 m.window → Inside i2 t2 m.window →
        ∃ c, f i1 i2 t1 t2 m.window = .ok c := by
    intro image t _ _
    have h8 : ∀ i, i = left ∨ i = right → i.is8U = true := by rintro i (rfl | rfl) <;> assumption
    rcases hgen with e | e
    · refine ⟨sad, by rw [e]; rfl, fun i1 i2 t1 t2 e1 e2 w1 w2 => ⟨_, C55_sad_value i1 i2 t1 t2 _ w1 w2 (h8 _ e1) (h8 _ e2)⟩⟩
    · refine ⟨ssd, by rw [e]; rfl, fun i1 i2 t1 t2 e1 e2 w1 w2 => ⟨_, C55_ssd_value i1 i2 t1 t2 _ w1 w2 (h8 _ e1) (h8 _ e2)⟩⟩
  unfold Matcher.keypointIndices
  dsimp only
  generalize (if inRight then leftKps else rightKps) = kps
  generalize (if inRight then rightKps else leftKps) = others
  obtain ⟨s, hs, -⟩ := forLoop_inv (σ := List Int × List K) (fun _ _ => True) (n := kps.length)
    (body := fun i s => getAt kps i >>= fun kp =>
      m.keypointIndex kp others left right inRight 0 >>= fun r =>
      if m.filter = .bidirectional ∧ r.1 ≠ -1 then
        indexInt others r.1 >>= fun other =>
        m.keypointIndex other kps left right (!inRight) 0 >>= fun back =>
        if back.1 ≠ i then .ok (s.1 ++ [-1], s.2 ++ [r.2]) else .ok (s.1 ++ [r.1], s.2 ++ [r.2])
      else .ok (s.1 ++ [r.1], s.2 ++ [r.2])) (s := ([], [])) trivial (by
    intro i s hi _
    rw [getAt_ok (show kps[i]? = some kps[i] by simp [hi]), Outcome.bind_ok]
    obtain ⟨r, hr⟩ := C53_total m kps[i] others left right inRight 0 hs hg
    rw [hr, Outcome.bind_ok]
    split
    · rename_i hb
      obtain ⟨j, hj, hlt⟩ := (keypointIndex_range hr).resolve_left hb.2
      rw [hj, indexInt_ok (x := others[j]) ⟨by simp, by simp [hlt]⟩, Outcome.bind_ok]
      obtain ⟨back, hbk⟩ := C53_total m others[j] kps left right (!inRight) 0 hs hg
      rw [hbk, Outcome.bind_ok]
      split
      · exact ⟨_, rfl, trivial⟩
      · exact ⟨_, rfl, trivial⟩
    · exact ⟨_, rfl, trivial⟩)
  exact ⟨s.1, s.2, hs⟩

/-! ### The ratio test -/

/-- A left image with one bright pixel, and a right image with the same pixel twice. -/
def onePeak : Image := ⟨1, 8, true, fun _ c => if c = 6 then 200 else 0⟩
def twoPeaks : Image := ⟨1, 8, true, fun _ c => if c = 5 ∨ c = 2 then 199 else 0⟩
def pixelAt (x : ℚ) : KeyPoint ℚ := ⟨x, 1/2, 1, 0, 0, 0, 0⟩

/-- A matcher for windows of one pixel. -/
def pixelMatcher (filter : MatchingFilter) : Matcher ℚ := ⟨⟨1, 1⟩, 1, filter, 1/2, generateSad, 1000⟩

/-- C53 fails for the ratio test: both candidates have the same cost, and the first is reported although its cost is not below
half of the second best. -/
theorem C53_fails_ratio :
    ∃ (m : Matcher ℚ) (kp : KeyPoint ℚ) (search : List (KeyPoint ℚ)) (left right : Image),
      Matcher.create m.window m.vertical .ratioTest m.ratio m.generate m.maxCost = .ok m ∧
      m.keypointIndex kp search left right true 0 = .ok (0, 1) ∧
      CostAt sad m.window m.vertical true left right kp search 0 1 ∧
      CostAt sad m.window m.vertical true left right kp search 1 1 ∧ ¬ (1 : ℚ) < m.ratio * 1 := by
  refine ⟨pixelMatcher .ratioTest, pixelAt (13/2), [pixelAt (11/2), pixelAt (5/2)], onePeak, twoPeaks,
    by unfold Matcher.create; rw [if_neg (by decide), if_neg (by decide +kernel)]; rfl, by decide +kernel, ?_, ?_, by norm_num [pixelMatcher]⟩
  · refine ⟨_, rfl, ?_, by decide +kernel⟩
    rw [← admissible_iff (pixelMatcher .ratioTest)]
    decide +kernel
  · refine ⟨_, rfl, ?_, by decide +kernel⟩
    rw [← admissible_iff (pixelMatcher .ratioTest)]
    decide +kernel

/-- C53 fails for the ratio test: the same candidates in another order give another answer. The best candidate (cost 1) is
refused if it comes after one of cost 1.5 times as much, and reported if it comes before. -/
theorem C53_fails_ratio_order :
    ∃ (m : Matcher ℚ) (kp a b : KeyPoint ℚ) (left right : Image), m.filter = .ratioTest ∧
      m.keypointIndex kp [a, b] left right true 0 = .ok (0, 1) ∧
      m.keypointIndex kp [b, a] left right true 0 = .ok (-1, 1) :=
  ⟨{ pixelMatcher .ratioTest with ratio := 1/200 }, pixelAt (13/2), pixelAt (11/2), pixelAt (9/2), onePeak,
    ⟨1, 8, true, fun _ c => if c = 5 then 199 else if c = 4 then 100 else 0⟩, rfl, by decide +kernel, by decide +kernel⟩

/-! ### Concrete matches -/

def kpsLeft : List (KeyPoint ℚ) := [pixelAt (13/2), pixelAt (7/2), pixelAt (12/2)]
def kpsRight : List (KeyPoint ℚ) := [pixelAt (5/2), pixelAt (11/2), pixelAt (1/2)]

-- two left keypoints have the same best match: one of them is reported in both directions
example : (pixelMatcher .unidirectional).keypointIndices kpsLeft kpsRight onePeak twoPeaks true =
    .ok ([0, 2, 0], [1, 0, 1]) := by decide +kernel
example : (pixelMatcher .bidirectional).keypointIndices kpsLeft kpsRight onePeak twoPeaks true =
    .ok ([0, 2, -1], [1, 0, 1]) := by decide +kernel
-- no candidate to the left
example : (pixelMatcher .bidirectional).keypointIndices [pixelAt (1/4)] kpsRight onePeak twoPeaks true =
    .ok ([-1], [1000]) := by decide +kernel
example : (pixelMatcher .unidirectional).filter ≠ .ratioTest ∧ (pixelMatcher .bidirectional).generate = generateSad :=
  ⟨by decide, rfl⟩

/-! ### Configuration -/

omit [FloorRing K] in
/-- C53. A matcher can be created exactly with an odd positive window and a ratio strictly between zero and one. -/
theorem C53_create (window : Size) (vertical ratio maxCost : K) (filter : MatchingFilter)
    (generate : Image → Point → Outcome (CostFunction K)) :
    ((∃ m, Matcher.create window vertical filter ratio generate maxCost = .ok m) ↔
      0 < window.width ∧ 0 < window.height ∧ Odd window.width ∧ Odd window.height ∧ 0 < ratio ∧ ratio < 1) ∧
    ∀ m, Matcher.create window vertical filter ratio generate maxCost = .ok m →
      m = ⟨window, vertical, filter, ratio, generate, maxCost⟩ := by
  unfold Matcher.create
  refine ⟨?_, ?_⟩
  · split
    · rename_i hc
      refine ⟨?_, fun ⟨h1, h2, h3, h4, _⟩ => ?_⟩
      · rintro ⟨m, h⟩; cases h
      rw [Int.odd_iff] at h3 h4
      omega
    · split
      · rename_i hr
        refine ⟨?_, fun ⟨_, _, _, _, h5, h6⟩ => ?_⟩
        · rintro ⟨m, h⟩; cases h
        rcases hr with hr | hr
        · exact absurd h5 (not_lt.2 hr)
        · exact absurd h6 (not_lt.2 hr)
      · rename_i hc hr
        push Not at hr
        refine ⟨fun _ => ⟨by omega, by omega, ?_, ?_, hr.1, hr.2⟩, fun _ => ⟨_, rfl⟩⟩
        · rw [Int.odd_iff]; omega
        · rw [Int.odd_iff]; omega
  · intro m h
    split at h
    · cases h
    · split at h
      · cases h
      · exact (Outcome.ok.inj h).symm

/-- C53. The names of the filters. -/
theorem C53_filter_names (s : String) (f : MatchingFilter) :
    toMatchingFilter s = .ok f ↔ (s = "UNIDIRECTIONAL" ∧ f = .unidirectional) ∨ (s = "BIDIRECTIONAL" ∧ f = .bidirectional) ∨
      (s = "RATIO_TEST" ∧ f = .ratioTest) := by
  unfold toMatchingFilter
  by_cases h1 : s = "UNIDIRECTIONAL"
  · subst h1; cases f <;> simp
  · rw [if_neg h1]
    by_cases h2 : s = "BIDIRECTIONAL"
    · subst h2; cases f <;> simp
    · rw [if_neg h2]
      by_cases h3 : s = "RATIO_TEST"
      · subst h3; cases f <;> simp
      · rw [if_neg h3]; simp [h1, h2, h3]

end Stereo

end Serpent
