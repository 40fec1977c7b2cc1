import Verif.Props.StereoMatcher
import Mathlib.Tactic.FieldSimp

/-!
# C88: search along the line of a keypoint
-/

namespace Serpent

namespace Stereo

open EigenRos (forLoop getAt forLoop_inv forLoop_succ getAt_ok)

variable {K : Type} [Field K] [LinearOrder K] [FloorRing K]

/-! ### Specification -/

/-- Columns of windows that are searched for a window in column `x`: to the left in the right image, to the right in the left
image. -/
def OnSide (inRight : Bool) (x last y : Int) : Prop := if inRight then 0 ≤ y ∧ y ≤ x else x ≤ y ∧ y ≤ last

/-- Distance from `x` of the column `y` (they are searched from `x` outwards). -/
def away (inRight : Bool) (x y : Int) : Int := if inRight then x - y else y - x

/-- The column `y` is the closest of the columns with the smallest cost, and this is `c`, below `max`. -/
def ClosestMin (cost : Int → K → Prop) (inRight : Bool) (x last : Int) (max : K) (y : Int) (c : K) : Prop :=
  OnSide inRight x last y ∧ cost y c ∧ c < max ∧
    ∀ z d, OnSide inRight x last z → cost z d → c ≤ d ∧ (away inRight x z < away inRight x y → c < d)

/-- The cost of the window in column `y` of the other image. -/
def ScanCost (f : CostFunction K) (w : Size) (inRight : Bool) (left right : Image) (tl : Point) (y : Int) (d : K) : Prop :=
  f (if inRight then left else right) (if inRight then right else left) tl ⟨y, tl.y⟩ w = .ok (some d)

/-! ### The positions -/

theorem scanPositions_getElem {inRight : Bool} {x last : Int} {k : Nat} {y : Int} :
    (scanPositions inRight x last)[k]? = some y ↔ OnSide inRight x last y ∧ away inRight x y = k := by
  unfold scanPositions OnSide away
  cases inRight
  · simp only [Bool.false_eq_true, if_false, List.getElem?_map, Option.map_eq_some_iff]
    constructor
    · rintro ⟨a, ha, rfl⟩
      rw [List.getElem?_eq_some_iff] at ha
      obtain ⟨h1, h2⟩ := ha
      rw [List.length_range] at h1
      rw [List.getElem_range] at h2
      omega
    · rintro ⟨⟨h1, h2⟩, h3⟩
      exact ⟨k, by rw [List.getElem?_range (by omega)], by omega⟩
  · simp only [if_true, List.getElem?_map, Option.map_eq_some_iff]
    constructor
    · rintro ⟨a, ha, rfl⟩
      rw [List.getElem?_eq_some_iff] at ha
      obtain ⟨h1, h2⟩ := ha
      rw [List.length_range] at h1
      rw [List.getElem_range] at h2
      omega
    · rintro ⟨⟨h1, h2⟩, h3⟩
      exact ⟨k, by rw [List.getElem?_range (by omega)], by omega⟩

/-- An invariant of a fold that ends. -/
theorem foldlM_ok_inv {σ α : Type} (P : Nat → σ → Prop) (xs : List α) {body : σ → α → Outcome σ} {s s' : σ} (h0 : P 0 s)
    (hs : ∀ i x s t, xs[i]? = some x → P i s → body s x = .ok t → P (i + 1) t) (h : xs.foldlM body s = .ok s') :
    P xs.length s' := by
  induction xs using List.reverseRecOn generalizing s' with
  | nil => cases h; exact h0
  | append_singleton xs x ih =>
    rw [List.foldlM_append] at h
    cases hr : xs.foldlM body s with
    | ok t =>
      rw [hr, Outcome.bind_ok] at h
      simp only [List.foldlM_cons, List.foldlM_nil] at h
      rw [List.length_append]
      refine hs xs.length x t s' (by simp) (ih (fun i y s t hi => hs i y s t ?_) hr) ?_
      · rw [List.getElem?_append_left (List.getElem?_eq_some_iff.1 hi).1]; exact hi
      · cases hb : body t x with
        | ok u => rw [hb] at h; exact h
        | throws => rw [hb] at h; cases h
        | ub => rw [hb] at h; cases h
    | throws => rw [hr] at h; cases h
    | ub => rw [hr] at h; cases h

theorem foldlM_total {σ α : Type} (xs : List α) {body : σ → α → Outcome σ} (s : σ)
    (hs : ∀ x s, x ∈ xs → ∃ t, body s x = .ok t) : ∃ t, xs.foldlM body s = .ok t := by
  induction xs generalizing s with
  | nil => exact ⟨s, rfl⟩
  | cons x xs ih =>
    obtain ⟨t, ht⟩ := hs x s (by simp)
    rw [List.foldlM_cons, ht, Outcome.bind_ok]
    exact ih t fun y s hy => hs y s (by simp [hy])

theorem foldlM_invariant {σ α : Type} (P : σ → Prop) (xs : List α) {body : σ → α → Outcome σ} {s t : σ} (h0 : P s)
    (hs : ∀ x s t, x ∈ xs → P s → body s x = .ok t → P t) (h : xs.foldlM body s = .ok t) : P t := by
  induction xs generalizing s with
  | nil => cases h; exact h0
  | cons x xs ih =>
    rw [List.foldlM_cons] at h
    cases hb : body s x with
    | throws => rw [hb] at h; cases h
    | ub => rw [hb] at h; cases h
    | ok u =>
      rw [hb, Outcome.bind_ok] at h
      exact ih (hs x s u (by simp) h0 hb) (fun y s t hy => hs y s t (by simp [hy])) h

omit [Field K] [FloorRing K] in
theorem reverseScan_total {m : Matcher K} {f : CostFunction K} {reference searchImage : Image} {refTl searchTl : Point}
    {cost : K} {xs : List Int} (h : ∀ x ∈ xs, ∃ c, f reference searchImage ⟨x, searchTl.y⟩ searchTl m.window = .ok c) :
    ∃ b, m.reverseScan f reference searchImage refTl searchTl cost xs = .ok b := by
  induction xs with
  | nil => exact ⟨true, rfl⟩
  | cons x xs ih =>
    obtain ⟨c, hc⟩ := h x (by simp)
    rw [Matcher.reverseScan, hc, Outcome.bind_ok]
    split
    · exact ⟨false, rfl⟩
    · exact ih fun y hy => h y (by simp [hy])

omit [FloorRing K] in
theorem reverseScan_iff {m : Matcher K} {f : CostFunction K} {reference searchImage : Image} {refTl searchTl : Point}
    {cost : K} {xs : List Int} {b : Bool}
    (h : m.reverseScan f reference searchImage refTl searchTl cost xs = .ok b) :
    b = true ↔ ¬ ∃ x ∈ xs, x ≠ refTl.x ∧ ∃ d, f reference searchImage ⟨x, searchTl.y⟩ searchTl m.window = .ok (some d) ∧
      d < cost := by
  induction xs with
  | nil => cases h; simp
  | cons x xs ih =>
    rw [Matcher.reverseScan] at h
    cases hc : f reference searchImage ⟨x, searchTl.y⟩ searchTl m.window with
    | throws => rw [hc] at h; cases h
    | ub => rw [hc] at h; cases h
    | ok c =>
      rw [hc, Outcome.bind_ok] at h
      have hb : isBelow c cost = true ↔ ∃ d, (Outcome.ok c : Outcome (Option K)) = .ok (some d) ∧ d < cost := by
        cases c <;> simp [isBelow]
      split at h
      · rename_i hx
        cases h
        simp only [Bool.false_eq_true, List.mem_cons, false_iff, not_not]
        refine ⟨x, Or.inl rfl, hx.1, ?_⟩
        rw [hc]
        exact hb.1 hx.2
      · rename_i hx
        rw [ih h]
        refine not_congr ⟨?_, ?_⟩
        · rintro ⟨y, hy, hd⟩
          exact ⟨y, by simp [hy], hd⟩
        · rintro ⟨y, hy, hne, hd⟩
          rcases List.mem_cons.1 hy with rfl | hy
          · rw [hc] at hd
            exact absurd ⟨hne, hb.2 hd⟩ hx
          · exact ⟨y, hy, hne, hd⟩

theorem floor_half [IsStrictOrderedRing K] (x : Int) {w : Int} (hw : Odd w) :
    ⌊(x : K) + (w : K) / 2⌋ - (w - 1) / 2 = x := by
  obtain ⟨n, rfl⟩ := hw
  have h2 : (2 : K) ≠ 0 := two_ne_zero
  have e : (x : K) + ((2 * n + 1 : Int) : K) / 2 = ((x + n : Int) : K) + 1 / 2 := by
    push_cast
    field_simp
    ring
  have hh : ⌊((x + n : Int) : K) + 1 / 2⌋ = x + n := by
    rw [Int.floor_eq_iff]
    refine ⟨le_add_of_nonneg_right (by positivity), ?_⟩
    have : (1 : K) / 2 < 1 := by rw [div_lt_one two_pos]; exact one_lt_two
    linarith
  rw [e, hh]
  omega

/-- C88. What the search along the line returns. If the window of the keypoint is not inside of the image there is no result.
Otherwise the keypoint returned, of which the other attributes are unchanged, is the centre of a window in the same row, on the
correct side and inside of the image. It is the closest of the windows with the smallest cost; if no cost is below the largest
number it is the window of the keypoint itself. The flag: always set without a filter; with the reverse search, set unless another
window of the reference image costs less; with the ratio test, set if the cost is at most the ratio times the smallest cost of the
windows that are closer to the keypoint (not of all others). -/
theorem C88_scan [IsStrictOrderedRing K] (m : Matcher K) (kp : KeyPoint K) (left right : Image) (inRight : Bool)
    (res : Option (Scan K)) (hw : Odd m.window.width) (hh : Odd m.window.height)
    (h : m.keypointScan kp left right inRight = .ok res) :
    (res = none ↔ ¬ Inside (if inRight then left else right) (corner m.window kp.x kp.y) m.window) ∧
    ∀ r, res = some r → ∃ f y, m.generate (if inRight then left else right) (corner m.window kp.x kp.y) = .ok f ∧
      corner m.window r.keypoint.x r.keypoint.y = ⟨y, (corner m.window kp.x kp.y).y⟩ ∧
      r.keypoint = { kp with x := r.keypoint.x, y := r.keypoint.y } ∧
      OnSide inRight (corner m.window kp.x kp.y).x (left.cols - m.window.width) y ∧
      Inside (if inRight then right else left) ⟨y, (corner m.window kp.x kp.y).y⟩ m.window ∧
      (ClosestMin (ScanCost f m.window inRight left right (corner m.window kp.x kp.y)) inRight
          (corner m.window kp.x kp.y).x (left.cols - m.window.width) m.maxCost y r.cost ∨
        (y = (corner m.window kp.x kp.y).x ∧ r.cost = m.maxCost ∧
          ∀ z d, OnSide inRight (corner m.window kp.x kp.y).x (left.cols - m.window.width) z →
            ScanCost f m.window inRight left right (corner m.window kp.x kp.y) z d → m.maxCost ≤ d)) ∧
      (m.filter = .unidirectional → r.matched = true) ∧
      (m.filter = .bidirectional → (r.matched = true ↔ ¬ ∃ z d, OnSide (!inRight) y (left.cols - m.window.width) z ∧
        z ≠ (corner m.window kp.x kp.y).x ∧ d < r.cost ∧
        f (if inRight then left else right) (if inRight then right else left) ⟨z, (corner m.window kp.x kp.y).y⟩
          ⟨y, (corner m.window kp.x kp.y).y⟩ m.window = .ok (some d))) ∧
      (m.filter = .ratioTest → ∃ second, (r.matched = true ↔ r.cost / second ≤ m.ratio) ∧
        (∀ z d, OnSide inRight (corner m.window kp.x kp.y).x (left.cols - m.window.width) z →
          away inRight (corner m.window kp.x kp.y).x z < away inRight (corner m.window kp.x kp.y).x y →
          ScanCost f m.window inRight left right (corner m.window kp.x kp.y) z d → second ≤ d) ∧
        (second = m.maxCost ∨ ∃ z, OnSide inRight (corner m.window kp.x kp.y).x (left.cols - m.window.width) z ∧
          away inRight (corner m.window kp.x kp.y).x z < away inRight (corner m.window kp.x kp.y).x y ∧
          ScanCost f m.window inRight left right (corner m.window kp.x kp.y) z second)) := by
  unfold Matcher.keypointScan at h
  split at h
  · cases h
  rename_i hsize
  push Not at hsize
  dsimp only at h
  rw [show m.topLeft kp.x kp.y = corner m.window kp.x kp.y from rfl] at h
  generalize htl : corner m.window kp.x kp.y = tl at h ⊢
  by_cases hin : Inside (if inRight then left else right) tl m.window
  swap
  · rw [if_pos (by rw [← Bool.not_eq_true, within_iff]; exact hin)] at h
    cases h
    exact ⟨by simp [hin], by simp⟩
  rw [if_neg (by rw [within_iff.2 hin]; simp)] at h
  cases hg : m.generate (if inRight then left else right) tl with
  | throws => rw [hg] at h; cases h
  | ub => rw [hg] at h; cases h
  | ok f =>
    rw [hg, Outcome.bind_ok] at h
    generalize hl : List.foldlM (m := Outcome) _ _ _ = l at h
    cases l with
    | throws => cases h
    | ub => cases h
    | ok s =>
      rw [Outcome.bind_ok] at h
      -- the search
      have hin0 : 0 ≤ tl.x ∧ tl.x + m.window.width ≤ left.cols := by
        cases inRight
        · simp only [Bool.false_eq_true, if_false] at hin
          have := hin.2.1
          exact ⟨hin.1, by omega⟩
        · exact ⟨hin.1, hin.2.1⟩
      have hself : OnSide inRight tl.x (left.cols - m.window.width) tl.x := by
        unfold OnSide
        split <;> omega
      have hinside : ∀ y, OnSide inRight tl.x (left.cols - m.window.width) y →
          Inside (if inRight then right else left) ⟨y, tl.y⟩ m.window := by
        intro y hy
        unfold OnSide at hy
        cases inRight
        · simp only [Bool.false_eq_true, if_false] at hin hy ⊢
          obtain ⟨q1, q2, q3, q4⟩ := hin
          exact ⟨by show 0 ≤ y; omega, by show y + _ ≤ _; omega, q3, by have := hsize.1; show tl.y + _ ≤ _; omega⟩
        · simp only [if_true] at hin hy ⊢
          obtain ⟨q1, q2, q3, q4⟩ := hin
          exact ⟨by show 0 ≤ y; omega, by have := hsize.2; show y + _ ≤ _; omega, q3,
            by have := hsize.1; show tl.y + _ ≤ _; omega⟩
      have key : ∃ y, s.best = y ∧ OnSide inRight tl.x (left.cols - m.window.width) y ∧
          (ClosestMin (ScanCost f m.window inRight left right tl) inRight tl.x (left.cols - m.window.width) m.maxCost y
              s.cost ∨
            (y = tl.x ∧ s.cost = m.maxCost ∧ ∀ z d, OnSide inRight tl.x (left.cols - m.window.width) z →
              ScanCost f m.window inRight left right tl z d → m.maxCost ≤ d)) ∧
          (∀ z d, OnSide inRight tl.x (left.cols - m.window.width) z → away inRight tl.x z < away inRight tl.x y →
            ScanCost f m.window inRight left right tl z d → s.second ≤ d) ∧
          (s.second = m.maxCost ∨ ∃ z, OnSide inRight tl.x (left.cols - m.window.width) z ∧
            away inRight tl.x z < away inRight tl.x y ∧ ScanCost f m.window inRight left right tl z s.second) := by
        let pos : Nat → Int := fun k => if inRight then tl.x - k else tl.x + k
        let cost : Nat → K → Prop := fun k d => OnSide inRight tl.x (left.cols - m.window.width) (pos k) ∧
          ScanCost f m.window inRight left right tl (pos k) d
        have hpos : ∀ k y, (scanPositions inRight tl.x (left.cols - m.window.width))[k]? = some y →
            y = pos k ∧ OnSide inRight tl.x (left.cols - m.window.width) y := by
          intro k y hy
          rw [scanPositions_getElem] at hy
          refine ⟨?_, hy.1⟩
          have := hy.2
          unfold away at this
          show y = if inRight then tl.x - k else tl.x + k
          split at this <;> split <;> first | omega | contradiction
        have hback : ∀ k, OnSide inRight tl.x (left.cols - m.window.width) (pos k) →
            (scanPositions inRight tl.x (left.cols - m.window.width))[k]? = some (pos k) := by
          intro k hk
          rw [scanPositions_getElem]
          refine ⟨hk, ?_⟩
          unfold away
          show (if inRight then tl.x - (if inRight then tl.x - k else tl.x + k) else
            (if inRight then tl.x - k else tl.x + k) - tl.x : Int) = k
          cases inRight <;> simp
        have hof : ∀ y, OnSide inRight tl.x (left.cols - m.window.width) y →
            ∃ k : Nat, y = pos k ∧ away inRight tl.x y = k := by
          intro y hy
          unfold OnSide at hy
          refine ⟨(away inRight tl.x y).toNat, ?_, ?_⟩
          · show y = if inRight then tl.x - ((away inRight tl.x y).toNat : Int) else tl.x + ((away inRight tl.x y).toNat : Int)
            unfold away
            cases inRight
            · simp only [Bool.false_eq_true, if_false] at hy ⊢; omega
            · simp only [if_true] at hy ⊢; omega
          · unfold away
            cases inRight
            · simp only [Bool.false_eq_true, if_false] at hy ⊢; omega
            · simp only [if_true] at hy ⊢; omega
        have found : Found pos tl.x cost m.maxCost (scanPositions inRight tl.x (left.cols - m.window.width)).length s := by
          refine foldlM_ok_inv (Found pos tl.x cost m.maxCost) _ ?_ ?_ hl
          · exact Or.inl ⟨rfl, fun k d hk => absurd hk (Nat.not_lt_zero k)⟩
          · intro i x s t hi hf ht
            obtain ⟨rfl, hon⟩ := hpos i x hi
            generalize hc : f _ _ _ _ _ = c at ht
            cases c with
            | throws => cases ht
            | ub => cases ht
            | ok c =>
              rw [Outcome.bind_ok] at ht
              rw [← Outcome.ok.inj ht]
              refine hf.step c fun d => ⟨?_, ?_⟩
              · rintro ⟨-, hd⟩
                have := hc.symm.trans hd
                simpa using this
              · rintro rfl
                exact ⟨hon, hc⟩
        have hnear : ∀ j k : Nat, away inRight tl.x (pos k) < away inRight tl.x (pos j) ↔ k < j := by
          intro j k
          show away inRight tl.x (if inRight then tl.x - k else tl.x + k) <
            away inRight tl.x (if inRight then tl.x - j else tl.x + j) ↔ k < j
          unfold away
          cases inRight <;> simp
        rcases found.of_end (fun k d hd => (List.getElem?_eq_some_iff.1 (hback k hd.1)).1) with ⟨rfl, hn⟩ | ⟨j, hj, hmin, -, hsec1, hsec3⟩
        · refine ⟨tl.x, rfl, hself, Or.inr ⟨rfl, rfl, fun z d hz hd => ?_⟩, fun z d hz hlt _ => ?_, Or.inl rfl⟩
          swap
          · exfalso
            unfold OnSide at hz
            unfold away at hlt
            cases inRight
            · simp only [Bool.false_eq_true, if_false] at hz hlt; omega
            · simp only [if_true] at hz hlt; omega
          rcases found with ⟨-, hall⟩ | ⟨j, -, -, -, hlt, -⟩
          · obtain ⟨k, rfl, -⟩ := hof z hz
            exact hall k d (List.getElem?_eq_some_iff.1 (hback k hz)).1 ⟨hz, hd⟩
          · exact absurd hlt (lt_irrefl _)
        · obtain ⟨⟨h1, h1'⟩, h2, h3⟩ := hmin
          refine ⟨pos j, hj, h1, Or.inl ⟨h1, h1', h2, fun z d hz hd => ?_⟩, fun z d hz hlt hd => ?_, ?_⟩
          rotate_left
          · obtain ⟨k, rfl, -⟩ := hof z hz
            exact hsec1 k d ((hnear j k).1 hlt) ⟨hz, hd⟩
          · rcases hsec3 with e | ⟨k, hk, hz, hd⟩
            · exact .inl e
            · exact .inr ⟨pos k, hz, (hnear j k).2 hk, hd⟩
          obtain ⟨k, rfl, hk⟩ := hof z hz
          obtain ⟨h4, h5⟩ := h3 k d ⟨hz, hd⟩
          refine ⟨h4, fun hlt => h5 ?_⟩
          obtain ⟨k', e, hk'⟩ := hof (pos j) h1
          have : k' = j := by
            show k' = j
            have e' : (if inRight then tl.x - j else tl.x + j : Int) = if inRight then tl.x - k' else tl.x + k' := e
            cases inRight
            · simp only [Bool.false_eq_true, if_false] at e'; omega
            · simp only [if_true] at e'; omega
          omega
      obtain ⟨y, hy, hon, hmin, hsecond⟩ := key
      rw [hy] at h
      -- the flag
      have hm : ∃ b, m.scanMatched f (if inRight then left else right) (if inRight then right else left) tl
          ⟨y, tl.y⟩ s (!inRight) (left.cols - m.window.width) = .ok b ∧
          res = some ⟨{ kp with x := (y : K) + (m.window.width : K) / 2, y := (tl.y : K) + (m.window.height : K) / 2 },
            s.cost, b⟩ := by
        generalize hmm : m.scanMatched f (if inRight then left else right) (if inRight then right else left) tl
          ⟨y, tl.y⟩ s (!inRight) (left.cols - m.window.width) = mm at h
        cases mm with
        | throws => cases h
        | ub => cases h
        | ok b => exact ⟨b, rfl, (Outcome.ok.inj h).symm⟩
      obtain ⟨b, hb, rfl⟩ := hm
      refine ⟨by simp [hin], ?_⟩
      intro r hr
      rw [Option.some_inj] at hr
      subst hr
      refine ⟨f, y, rfl, ?_, rfl, hon, hinside y hon, hmin, ?_, ?_, ?_⟩
      · unfold corner
        dsimp only
        rw [floor_half y hw, floor_half tl.y hh]
      · intro hf
        unfold Matcher.scanMatched at hb
        rw [hf] at hb
        exact (Outcome.ok.inj hb).symm
      · intro hf
        unfold Matcher.scanMatched at hb
        rw [hf] at hb
        dsimp only at hb ⊢
        rw [reverseScan_iff hb]
        refine not_congr ⟨?_, ?_⟩
        · rintro ⟨x, hx, hne, d, hd, hlt⟩
          obtain ⟨k, hk⟩ := List.getElem?_of_mem hx
          exact ⟨x, d, (scanPositions_getElem.1 hk).1, hne, hlt, hd⟩
        · rintro ⟨z, d, hz, hne, hlt, hd⟩
          refine ⟨z, ?_, hne, d, hd, hlt⟩
          apply List.mem_of_getElem? (i := (away (!inRight) y z).toNat)
          rw [scanPositions_getElem]
          refine ⟨hz, ?_⟩
          unfold OnSide at hz
          unfold away
          cases inRight
          · simp only [Bool.not_false, if_true] at hz ⊢; omega
          · simp only [Bool.not_true, Bool.false_eq_true, if_false] at hz ⊢; omega
      · intro hf
        unfold Matcher.scanMatched at hb
        rw [hf] at hb
        refine ⟨s.second, ?_, hsecond⟩
        rw [← Outcome.ok.inj hb]
        unfold Search.rejected
        by_cases hr : s.cost / s.second > m.ratio
        · simp [hr]
        · simp [hr, not_lt.1 hr]

/-- C88 fails for the reverse search with the zero mean cost (also if its accumulators start at zero): the cost of the other
windows of the reference image is computed with the mean of the window of the keypoint. Here the window at column 0 of the other
image is reported as a mutual match of the window at column 2, although the window at column 0 of the first image fits it
exactly. -/
theorem C88_fails_reverse_mean :
    ∃ (m : Matcher ℚ) (kp : KeyPoint ℚ) (left right : Image) (r : Scan ℚ),
      m.filter = .bidirectional ∧ m.generate = generateZmsad (.ok 0) m.window ∧
      Matcher.create m.window m.vertical m.filter m.ratio m.generate m.maxCost = .ok m ∧
      m.keypointScan kp left right true = .ok (some r) ∧ r.matched = true ∧ 0 < r.cost ∧
      corner m.window kp.x kp.y = ⟨2, 0⟩ ∧ corner m.window r.keypoint.x r.keypoint.y = ⟨0, 0⟩ ∧
      zmsadFrom (.ok 0) left right ⟨0, 0⟩ ⟨0, 0⟩ m.window = .ok (some (0 : ℚ)) :=
  let left : Image := ⟨1, 5, true, fun _ c => if c < 3 then 2 else 1⟩
  let right : Image := ⟨1, 5, true, fun _ c => if c < 3 then 3 else if c = 3 then 0 else 6⟩
  ⟨⟨⟨3, 1⟩, 1, .bidirectional, 1/2, generateZmsad (.ok 0) ⟨3, 1⟩, 1000⟩, ⟨7/2, 1/2, 1, 0, 0, 0, 0⟩, left, right,
    ⟨⟨3/2, 1/2, 1, 0, 0, 0, 0⟩, 4/3, true⟩, rfl, rfl,
    by unfold Matcher.create; rw [if_neg (by decide), if_neg (by decide +kernel)], by decide +kernel, rfl, by decide +kernel,
    by decide +kernel, by decide +kernel, by decide +kernel⟩

/-! ### Lists of keypoints -/

/-- C88 fails for lists of keypoints: if the search along the line gives no result for one of them, its flag is not
initialised. -/
theorem C88_fails_flag :
    ∃ (m : Matcher ℚ) (kps : List (KeyPoint ℚ)) (left right : Image),
      Matcher.create m.window m.vertical m.filter m.ratio m.generate m.maxCost = .ok m ∧
      m.keypointScans kps left right true = .ub :=
  ⟨⟨⟨3, 3⟩, 1, .unidirectional, 1/2, generateSad, 1000⟩, [⟨1/2, 1/2, 1, 0, 0, 0, 0⟩], gradient, gradient,
    by unfold Matcher.create; rw [if_neg (by decide), if_neg (by decide +kernel)], by decide +kernel⟩

/-- C88, lists of keypoints whose windows are all inside of the image: one result per keypoint, which is that of the single
search. Missing: keypoints near the border, see `C88_fails_flag`. -/
theorem C88_scans_partial (m : Matcher K) (kps : List (KeyPoint K)) (left right : Image) (inRight : Bool)
    (hs : left.rows = right.rows ∧ left.cols = right.cols) (u1 : left.is8U = true) (u2 : right.is8U = true)
    (hgen : m.generate = generateSad ∨ m.generate = generateSsd)
    (hin : ∀ kp ∈ kps, Inside (if inRight then left else right) (corner m.window kp.x kp.y) m.window) :
    ∃ rs, m.keypointScans kps left right inRight = .ok rs ∧
      List.Forall₂ (fun kp r => m.keypointScan kp left right inRight = .ok (some r)) kps rs := by
  -- one keypoint
  have one : ∀ kp ∈ kps, ∃ r, m.keypointScan kp left right inRight = .ok (some r) := by
    intro kp hkp
    have hk := hin kp hkp
    unfold Matcher.keypointScan
    rw [if_neg (by rw [hs.1, hs.2]; simp)]
    dsimp only
    rw [show m.topLeft kp.x kp.y = corner m.window kp.x kp.y from rfl, if_neg (by rw [within_iff.2 hk]; simp)]
    generalize corner m.window kp.x kp.y = tl at hk ⊢
    obtain ⟨f, hf', hd⟩ : ∃ f, m.generate (if inRight then left else right) tl = .ok f ∧
        ∀ t1 t2, Inside (if inRight then left else right) t1 m.window → Inside (if inRight then right else left) t2 m.window →
          ∃ c, f (if inRight then left else right) (if inRight then right else left) t1 t2 m.window = .ok c := by
      have h1 : (if inRight then left else right).is8U = true := by cases inRight <;> assumption
      have h2 : (if inRight then right else left).is8U = true := by cases inRight <;> assumption
      rcases hgen with e | e
      · exact ⟨sad, by rw [e]; rfl, fun t1 t2 ht1 ht2 => ⟨_, C55_sad_value _ _ t1 t2 _ ht1 ht2 h1 h2⟩⟩
      · exact ⟨ssd, by rw [e]; rfl, fun t1 t2 ht1 ht2 => ⟨_, C55_ssd_value _ _ t1 t2 _ ht1 ht2 h1 h2⟩⟩
    rw [hf', Outcome.bind_ok]
    obtain ⟨s, hs'⟩ := foldlM_total (scanPositions inRight tl.x (left.cols - m.window.width))
      (body := fun s x => f (if inRight then left else right) (if inRight then right else left) tl ⟨x, tl.y⟩ m.window >>=
        fun c => .ok (Search.update s c x)) (⟨m.maxCost, m.maxCost, tl.x⟩ : Search K) (by
      intro x s hx
      obtain ⟨k, hk'⟩ := List.getElem?_of_mem hx
      have hon := (scanPositions_getElem.1 hk').1
      obtain ⟨c, hc⟩ := hd tl ⟨x, tl.y⟩ hk (by
        unfold OnSide at hon
        obtain ⟨q1, q2, q3, q4⟩ := hk
        cases inRight
        · simp only [Bool.false_eq_true, if_false] at hon q1 q2 q3 q4 ⊢
          exact ⟨by show 0 ≤ x; omega, by show x + _ ≤ _; omega, q3, by have := hs.1; show tl.y + _ ≤ _; omega⟩
        · simp only [if_true] at hon q1 q2 q3 q4 ⊢
          exact ⟨by show 0 ≤ x; omega, by have := hs.2; show x + _ ≤ _; omega, q3,
            by have := hs.1; show tl.y + _ ≤ _; omega⟩)
      exact ⟨_, by rw [hc]; rfl⟩)
    rw [hs', Outcome.bind_ok]
    have hbest : OnSide inRight tl.x (left.cols - m.window.width) s.best := by
      refine foldlM_invariant (fun s : Search K => OnSide inRight tl.x (left.cols - m.window.width) s.best) _ ?_ ?_ hs'
      · obtain ⟨q1, q2, -, -⟩ := hk
        unfold OnSide
        cases inRight
        · simp only [Bool.false_eq_true, if_false] at q1 q2 ⊢; have := hs.2; omega
        · simp only [if_true] at q1 q2 ⊢; omega
      · intro x s' t hx hP ht
        obtain ⟨k, hk'⟩ := List.getElem?_of_mem hx
        have hon := (scanPositions_getElem.1 hk').1
        cases hc : f (if inRight then left else right) (if inRight then right else left) tl ⟨x, tl.y⟩ m.window with
        | throws => rw [hc] at ht; cases ht
        | ub => rw [hc] at ht; cases ht
        | ok c =>
          rw [hc, Outcome.bind_ok] at ht
          rw [← Outcome.ok.inj ht]
          unfold Search.update
          cases c with
          | none => exact hP
          | some c =>
            dsimp only
            split
            · exact hon
            · exact hP
    have hmatched : ∃ b, m.scanMatched f (if inRight then left else right) (if inRight then right else left) tl
        ⟨s.best, tl.y⟩ s (!inRight) (left.cols - m.window.width) = .ok b := by
      unfold Matcher.scanMatched
      cases m.filter with
      | unidirectional => exact ⟨_, rfl⟩
      | ratioTest => exact ⟨_, rfl⟩
      | bidirectional =>
        refine reverseScan_total fun x hx => hd _ _ ?_ ?_
        all_goals
          obtain ⟨k, hk'⟩ := List.getElem?_of_mem hx
          have hon := (scanPositions_getElem.1 hk').1
          have h1 := hs.1
          have h2 := hs.2
          unfold OnSide at hon hbest
          obtain ⟨q1, q2, q3, q4⟩ := hk
          cases inRight
          all_goals
            simp only [Bool.false_eq_true, Bool.not_false, Bool.not_true, if_false, if_true] at hon hbest q1 q2 q3 q4 ⊢
            refine ⟨?_, ?_, q3, ?_⟩
            all_goals dsimp only
            all_goals omega
    obtain ⟨b, hb⟩ := hmatched
    rw [hb, Outcome.bind_ok]
    exact ⟨_, rfl⟩
  clear hin
  have hloop : ∀ n, n ≤ kps.length → ∃ rs, forLoop n (fun i s => getAt kps i >>= fun kp =>
      m.keypointScan kp left right inRight >>= fun r =>
      match r with
      | some r => .ok (s ++ [r])
      | none => .ub) [] = .ok rs ∧
      List.Forall₂ (fun kp r => m.keypointScan kp left right inRight = .ok (some r)) (kps.take n) rs := by
    intro n hn
    induction n with
    | zero => exact ⟨[], rfl, by simp⟩
    | succ n ih =>
      obtain ⟨rs, h1, h2⟩ := ih (by omega)
      have hx : kps[n]? = some kps[n] := by simp
      obtain ⟨r, hr⟩ := one kps[n] (List.getElem_mem _)
      refine ⟨rs ++ [r], ?_, ?_⟩
      · rw [forLoop_succ, h1, Outcome.bind_ok, getAt_ok hx, Outcome.bind_ok, hr]; rfl
      · rw [List.take_add_one, hx]
        exact List.rel_append h2 (by simpa using hr)
  obtain ⟨rs, h1, h2⟩ := hloop kps.length le_rfl
  rw [List.take_length] at h2
  exact ⟨rs, h1, h2⟩

/-! ### A concrete search -/

-- the bright pixel at column 6 is found at column 5, in the middle of the pixel
example : (pixelMatcher .bidirectional).keypointScan (pixelAt (25/4)) onePeak twoPeaks true =
    .ok (some ⟨pixelAt (11/2), 1, true⟩) := by decide +kernel
-- a darker pixel in the reference image fits better: no match
example : (pixelMatcher .bidirectional).keypointScan (pixelAt (25/4)) ⟨1, 8, true, fun _ c => if c = 6 then 200 else if c = 7 then 199 else 0⟩
    twoPeaks true = .ok (some ⟨pixelAt (11/2), 1, false⟩) := by decide +kernel
example : Odd (pixelMatcher .bidirectional).window.width := by decide
-- a list with the reverse search
example : ∃ rs, (pixelMatcher .bidirectional).keypointScans [pixelAt (25/4), pixelAt (25/4)] onePeak twoPeaks true = .ok rs ∧
    rs.length = 2 := ⟨[⟨pixelAt (11/2), 1, true⟩, ⟨pixelAt (11/2), 1, true⟩], by decide +kernel, rfl⟩

end Stereo

end Serpent
