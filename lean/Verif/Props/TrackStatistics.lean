import Verif.Model.TrackStatistics
import Verif.Props.StereoFinder
import Mathlib.Tactic.Linarith
import Mathlib.Tactic.FieldSimp

/-!
# C123, C124: how long features are tracked, and which share of them is kept

`frames` are the ids of the matches of the successive frames.
-/

namespace Serpent

namespace TrackStatistics

/-! ## C123 -/

/-- `n` is the number of successive frames up to frame `i` that have the id: it is in the last `n` of them, and not in the one before
these. -/
def IsStreak (frames : List (List Int)) (i : Nat) (id : Int) (n : Nat) : Prop :=
  1 ≤ n ∧ n ≤ i + 1 ∧ (∀ k f, i + 1 - n ≤ k → k ≤ i → frames[k]? = some f → id ∈ f) ∧
  (n ≤ i → ∀ f, frames[i - n]? = some f → id ∉ f)

/-- The number is determined. -/
theorem isStreak_unique {frames : List (List Int)} {i : Nat} {id : Int} {m n : Nat} (hi : i < frames.length)
    (hm : IsStreak frames i id m) (hn : IsStreak frames i id n) : m = n := by
  have key : ∀ {m n}, IsStreak frames i id m → IsStreak frames i id n → ¬ m < n := by
    intro m n hm hn hlt
    have h1 : i - m < frames.length := by omega
    have := hm.2.2.2 (by have := hn.2.1; omega) _ (List.getElem?_eq_getElem h1)
    exact this (hn.2.2.1 (i - m) _ (by have := hn.2.1; omega) (by omega) (List.getElem?_eq_getElem h1))
  have h1 := key hm hn
  have h2 := key hn hm
  omega

/-- The frames before the current one, latest first, that have the id. -/
def runLength (id : Int) : List (List Int) → Nat
  | [] => 0
  | f :: fs => if id ∈ f then runLength id fs + 1 else 0

theorem frameLoop_fst (last : Counts) : ∀ (ids : List Int) (new : Counts), (frameLoop last new ids).1 = ids.map (newCount last)
  | [], _ => rfl
  | id :: ids, new => by simp only [frameLoop, List.map_cons, frameLoop_fst last ids]

theorem frameLoop_snd (last : Counts) : ∀ (ids : List Int) (new : Counts) (x : Int),
    (frameLoop last new ids).2 x = if x ∈ ids then some (newCount last x) else new x
  | [], new, x => by simp [frameLoop]
  | id :: ids, new, x => by
    simp only [frameLoop, frameLoop_snd last ids]
    by_cases h : x ∈ ids
    · simp [h]
    · by_cases h2 : x = id
      · subst h2
        simp [h]
      · simp [h, h2]

/-- The map knows the run of every id. -/
def Knows (last : Counts) (before : List (List Int)) : Prop := ∀ x, last x = if runLength x before = 0 then none else some (runLength x before)

theorem newCount_of {last : Counts} {before : List (List Int)} (h : Knows last before) (id : Int) : newCount last id = runLength id before + 1 := by
  unfold newCount
  rw [h id]
  split
  · rename_i n hn
    split at hn
    · exact absurd hn (by simp)
    · rw [Option.some.inj hn]
  · rename_i hn
    split at hn
    · rename_i h0
      rw [h0]
    · exact absurd hn (by simp)

theorem knows_step {last : Counts} {before : List (List Int)} (h : Knows last before) (ids : List Int) :
    Knows (frameLoop last (fun _ => none) ids).2 (ids :: before) := by
  intro x
  rw [frameLoop_snd, newCount_of h]
  by_cases hx : x ∈ ids <;> simp [runLength, hx]

theorem extreme_spec {better : Nat → Nat → Nat} {l : List Nat} {m : Nat} (hb : ∀ a b, better a b = a ∨ better a b = b)
    (h : extreme better l = .ok m) : m ∈ l := by
  cases l with
  | nil => exact absurd h (by simp [extreme])
  | cons x xs =>
    obtain rfl := Outcome.ok.inj h
    have : ∀ (xs : List Nat) (x : Nat), xs.foldl better x = x ∨ xs.foldl better x ∈ xs := by
      intro xs
      induction xs with
      | nil => exact fun x => Or.inl rfl
      | cons y ys ih =>
        intro x
        rw [List.foldl_cons]
        rcases ih (better x y) with h | h
        · rw [h]
          rcases hb x y with h | h
          · exact Or.inl h
          · rw [h]
            exact Or.inr List.mem_cons_self
        · exact Or.inr (List.mem_cons_of_mem _ h)
    rcases this xs x with h | h
    · rw [h]
      exact List.mem_cons_self
    · exact List.mem_cons_of_mem _ h

theorem extreme_max {l : List Nat} {m : Nat} (h : extreme Nat.max l = .ok m) : m ∈ l ∧ ∀ x ∈ l, x ≤ m := by
  refine ⟨extreme_spec (fun a b => by rcases Nat.le_total a b with h | h <;> simp [h]) h, ?_⟩
  cases l with
  | nil => exact fun x hx => absurd hx List.not_mem_nil
  | cons x xs =>
    obtain rfl := Outcome.ok.inj h
    have : ∀ (xs : List Nat) (x : Nat), x ≤ xs.foldl Nat.max x ∧ ∀ y ∈ xs, y ≤ xs.foldl Nat.max x := by
      intro xs
      induction xs with
      | nil => exact fun x => ⟨le_refl _, fun y hy => absurd hy List.not_mem_nil⟩
      | cons z zs ih =>
        intro x
        obtain ⟨h1, h2⟩ := ih (Nat.max x z)
        refine ⟨(Nat.le_max_left x z).trans h1, fun y hy => ?_⟩
        rcases List.mem_cons.1 hy with rfl | hy
        · exact (Nat.le_max_right x y).trans h1
        · exact h2 y hy
    intro y hy
    rcases List.mem_cons.1 hy with rfl | hy
    · exact (this xs y).1
    · exact (this xs x).2 y hy

theorem extreme_min {l : List Nat} {m : Nat} (h : extreme Nat.min l = .ok m) : m ∈ l ∧ ∀ x ∈ l, m ≤ x := by
  refine ⟨extreme_spec (fun a b => by rcases Nat.le_total a b with h | h <;> simp [h]) h, ?_⟩
  cases l with
  | nil => exact fun x hx => absurd hx List.not_mem_nil
  | cons x xs =>
    obtain rfl := Outcome.ok.inj h
    have : ∀ (xs : List Nat) (x : Nat), xs.foldl Nat.min x ≤ x ∧ ∀ y ∈ xs, xs.foldl Nat.min x ≤ y := by
      intro xs
      induction xs with
      | nil => exact fun x => ⟨le_refl _, fun y hy => absurd hy List.not_mem_nil⟩
      | cons z zs ih =>
        intro x
        obtain ⟨h1, h2⟩ := ih (Nat.min x z)
        refine ⟨h1.trans (Nat.min_le_left x z), fun y hy => ?_⟩
        rcases List.mem_cons.1 hy with rfl | hy
        · exact h1.trans (Nat.min_le_right x y)
        · exact h2 y hy
    intro y hy
    rcases List.mem_cons.1 hy with rfl | hy
    · exact (this xs y).1
    · exact (this xs x).2 y hy

theorem bind_eq_ok {α β : Type} {x : Outcome α} {f : α → Outcome β} {b : β} (h : (x >>= f) = .ok b) : ∃ a, x = .ok a ∧ f a = .ok b := by
  cases x with
  | ok a => exact ⟨a, rfl, h⟩
  | throws => exact absurd h (by simp [Outcome.bind_throws])
  | ub => exact absurd h (by simp [Outcome.bind_ub])

/-- The counts of frame `i` of the rest of the frames. -/
theorem framesLoop_spec : ∀ (rest : List (List Int)) (last : Counts) (before : List (List Int)) (fs : List FrameTracks),
    Knows last before → framesLoop last rest = .ok fs →
    fs.length = rest.length ∧ ∀ (i : Nat) (F : FrameTracks) (ids : List Int), fs[i]? = some F → rest[i]? = some ids →
      F.tracked = ids.map (fun id => runLength id ((rest.take (i + 1)).reverse ++ before)) ∧ F.mean = mean F.tracked ∧
      extreme Nat.max F.tracked = .ok F.max ∧ extreme Nat.min F.tracked = .ok F.min
  | [], last, before, fs, hk, h => by
    obtain rfl := Outcome.ok.inj h
    exact ⟨rfl, fun i F ids h1 h2 => absurd h1 (by simp)⟩
  | ids :: rest, last, before, fs, hk, h => by
    obtain ⟨mx, hmx, h⟩ := bind_eq_ok h
    obtain ⟨mn, hmn, h⟩ := bind_eq_ok h
    obtain ⟨fs', hfs, h⟩ := bind_eq_ok h
    obtain rfl := Outcome.ok.inj h
    obtain ⟨h1, h2⟩ := framesLoop_spec rest _ (ids :: before) fs' (knows_step hk ids) hfs
    refine ⟨by simp [h1], fun i F ids' hF hids => ?_⟩
    cases i with
    | zero =>
      obtain rfl := Option.some.inj hF
      obtain rfl := Option.some.inj hids
      refine ⟨?_, rfl, hmx, hmn⟩
      show (frameLoop last (fun _ => none) ids).1 = _
      rw [frameLoop_fst]
      refine List.map_congr_left fun id hid => ?_
      rw [newCount_of hk]
      simp [runLength, hid]
    | succ i =>
      obtain ⟨h3, h4⟩ := h2 i F ids' (by simpa using hF) (by simpa using hids)
      refine ⟨?_, h4⟩
      rw [h3]
      simp

/-- The run ending with the latest frame is the streak. -/
theorem runLength_isStreak (frames : List (List Int)) (i : Nat) (id : Int) {f : List Int} (hf : frames[i]? = some f) (hid : id ∈ f) :
    IsStreak frames i id (runLength id (frames.take (i + 1)).reverse) := by
  have hi : i < frames.length := (List.getElem?_eq_some_iff.1 hf).1
  -- by induction on the position of the latest frame
  have key : ∀ i, i < frames.length →
      runLength id (frames.take (i + 1)).reverse ≤ i + 1 ∧
      (∀ k f, i + 1 - runLength id (frames.take (i + 1)).reverse ≤ k → k ≤ i → frames[k]? = some f → id ∈ f) ∧
      (runLength id (frames.take (i + 1)).reverse ≤ i →
        ∀ f, frames[i - runLength id (frames.take (i + 1)).reverse]? = some f → id ∉ f) := by
    intro i
    induction i with
    | zero =>
      intro hi
      have e : (frames.take 1).reverse = [frames[0]] := by
        rw [List.take_one, List.head?_eq_getElem?, List.getElem?_eq_getElem hi]
        rfl
      rw [e]
      by_cases h : id ∈ frames[0]
      · simp only [runLength, h, if_true]
        refine ⟨le_refl _, fun k f _ hk hkf => ?_, fun h => absurd h (by omega)⟩
        obtain rfl : k = 0 := by omega
        rw [List.getElem?_eq_getElem hi] at hkf
        rw [← Option.some.inj hkf]
        exact h
      · simp only [runLength, h, if_false]
        refine ⟨by omega, fun k f h1 h2 => absurd h1 (by omega), fun _ f hf => ?_⟩
        simp only [Nat.sub_zero, List.getElem?_eq_getElem hi] at hf
        rw [← Option.some.inj hf]
        exact h
    | succ i ih =>
      intro hi
      obtain ⟨h1, h2, h3⟩ := ih (by omega)
      have e : (frames.take (i + 1 + 1)).reverse = frames[i + 1] :: (frames.take (i + 1)).reverse := by
        rw [List.take_add_one, List.getElem?_eq_getElem hi]
        simp
      rw [e]
      by_cases h : id ∈ frames[i + 1]
      · simp only [runLength, h, if_true]
        refine ⟨by omega, fun k f hk1 hk2 hkf => ?_, fun hle f hf => ?_⟩
        · by_cases hk : k = i + 1
          · subst hk
            rw [List.getElem?_eq_getElem hi] at hkf
            rw [← Option.some.inj hkf]
            exact h
          · exact h2 k f (by omega) (by omega) hkf
        · refine h3 (by omega) f ?_
          rw [← hf]
          congr 1
          omega
      · simp only [runLength, h, if_false]
        refine ⟨by omega, fun k f h1 h2 => absurd h1 (by omega), fun _ f hf => ?_⟩
        simp only [Nat.sub_zero, List.getElem?_eq_getElem hi] at hf
        rw [← Option.some.inj hf]
        exact h
  obtain ⟨h1, h2, h3⟩ := key i hi
  refine ⟨?_, h1, h2, h3⟩
  have e : (frames.take (i + 1)).reverse = f :: (frames.take i).reverse := by
    rw [List.take_add_one, hf]
    simp
  rw [e]
  simp [runLength, hid]

/-- The number reported for a match is the number of successive frames that had its id, up to this frame. -/
theorem C123_frames_tracked {frames : List (List Int)} {r : Tracks} (h : trackStatistics frames = .ok r) :
    r.frames.length = frames.length ∧
    ∀ (i : Nat) (F : FrameTracks) (ids : List Int), r.frames[i]? = some F → frames[i]? = some ids →
      F.tracked.length = ids.length ∧
      ∀ (j : Nat) (id : Int) (n : Nat), ids[j]? = some id → F.tracked[j]? = some n → IsStreak frames i id n := by
  obtain ⟨fs, hfs, h⟩ := bind_eq_ok h
  obtain ⟨d, hd, h⟩ := bind_eq_ok h
  obtain ⟨bins, hb, h⟩ := bind_eq_ok h
  obtain rfl := Outcome.ok.inj h
  obtain ⟨h1, h2⟩ := framesLoop_spec frames (fun _ => none) [] fs (fun x => by simp [runLength]) hfs
  refine ⟨h1, fun i F ids hF hids => ?_⟩
  obtain ⟨h3, -⟩ := h2 i F ids hF hids
  refine ⟨by simp [h3], fun j id n hid hn => ?_⟩
  rw [h3, List.getElem?_map, hid, List.append_nil] at hn
  obtain rfl := Option.some.inj hn
  exact runLength_isStreak frames i id hids (List.mem_of_getElem? hid)

/-- If a feature that was lost does not come back, the number reported for it counts all frames that had it so far. -/
theorem C123_all_frames {frames : List (List Int)} {i : Nat} {id : Int} {n : Nat} (hi : i < frames.length)
    (hn : IsStreak frames i id n)
    (hback : ∀ j k f g h, j ≤ k → k ≤ i → frames[j]? = some f → frames[k]? = some g → frames[i]? = some h → id ∈ f → id ∈ h → id ∈ g) :
    ∀ j f, j ≤ i → frames[j]? = some f → (id ∈ f ↔ i + 1 - n ≤ j) := by
  intro j f hj hf
  have hlast : id ∈ frames[i] := hn.2.2.1 i _ (by have := hn.1; omega) le_rfl (List.getElem?_eq_getElem hi)
  refine ⟨fun hid => ?_, fun h => hn.2.2.1 j f h hj hf⟩
  by_contra hlt
  have hlen : i - n < frames.length := by omega
  have hle : n ≤ i := by have := hn.2.1; omega
  exact hn.2.2.2 hle _ (List.getElem?_eq_getElem hlen)
    (hback j (i - n) f _ _ (by omega) (by omega) hf (List.getElem?_eq_getElem hlen) (List.getElem?_eq_getElem hi) hid hlast)

/-- The mean, the largest and the smallest of the numbers of a frame. -/
theorem C123_summary {frames : List (List Int)} {r : Tracks} (h : trackStatistics frames = .ok r) :
    (∀ F ∈ r.frames, (F.max ∈ F.tracked ∧ ∀ n ∈ F.tracked, n ≤ F.max) ∧ (F.min ∈ F.tracked ∧ ∀ n ∈ F.tracked, F.min ≤ n) ∧
      ∃ m, F.mean = some m ∧ m * F.tracked.length = F.tracked.sum) ∧
    (∃ F ∈ r.frames, F.max = r.maxDuration) ∧ ∀ F ∈ r.frames, ∀ n ∈ F.tracked, n ≤ r.maxDuration := by
  obtain ⟨fs, hfs, h⟩ := bind_eq_ok h
  obtain ⟨d, hd, h⟩ := bind_eq_ok h
  obtain ⟨bins, hb, h⟩ := bind_eq_ok h
  obtain rfl := Outcome.ok.inj h
  obtain ⟨h1, h2⟩ := framesLoop_spec frames (fun _ => none) [] fs (fun x => by simp [runLength]) hfs
  have hF : ∀ F ∈ fs, (F.max ∈ F.tracked ∧ ∀ n ∈ F.tracked, n ≤ F.max) ∧ (F.min ∈ F.tracked ∧ ∀ n ∈ F.tracked, F.min ≤ n) ∧
      ∃ m, F.mean = some m ∧ m * F.tracked.length = F.tracked.sum := by
    intro F hF
    obtain ⟨i, hi⟩ := List.mem_iff_getElem?.1 hF
    obtain ⟨hi', -⟩ := List.getElem?_eq_some_iff.1 hi
    obtain ⟨-, h3, h4, h5⟩ := h2 i F _ hi (List.getElem?_eq_getElem (h1 ▸ hi'))
    have h6 := extreme_max h4
    refine ⟨h6, extreme_min h5, ?_⟩
    have hpos : F.tracked.length ≠ 0 := by
      have := List.length_pos_of_mem h6.1
      omega
    rw [h3]
    unfold mean
    rw [if_neg hpos]
    refine ⟨_, rfl, ?_⟩
    have : (F.tracked.length : ℚ) ≠ 0 := by exact_mod_cast hpos
    field_simp
  obtain ⟨h3, h4⟩ := extreme_max hd
  refine ⟨hF, ?_, fun F hF' n hn => ?_⟩
  · obtain ⟨F, hF', e⟩ := List.mem_map.1 h3
    exact ⟨F, hF', e⟩
  · exact ((hF F hF').1.2 n hn).trans (h4 _ (List.mem_map_of_mem hF'))

theorem binLoop_spec : ∀ (ns row row' : List Nat), binLoop row ns = .ok row' →
    row'.length = row.length ∧ ∀ k c, row[k]? = some c → row'[k]? = some (c + ns.count (k + 1))
  | [], row, row', h => by
    obtain rfl := Outcome.ok.inj h
    exact ⟨rfl, fun k c hc => by simpa using hc⟩
  | n :: ns, row, row', h => by
    unfold binLoop at h
    split at h
    · exact absurd h (by simp)
    · rename_i m
      split at h
      · rename_i c hc
        obtain ⟨h1, h2⟩ := binLoop_spec ns _ row' h
        obtain ⟨hm, -⟩ := List.getElem?_eq_some_iff.1 hc
        refine ⟨by simpa using h1, fun k c' hc' => ?_⟩
        by_cases hk : k = m
        · subst hk
          rw [hc] at hc'
          obtain rfl := Option.some.inj hc'
          rw [h2 k (c + 1) (by rw [List.getElem?_set_self hm])]
          rw [List.count_cons_self]
          congr 1
          omega
        · rw [h2 k c' (by rw [List.getElem?_set_ne (Ne.symm hk)]; exact hc'), List.count_cons_of_ne (by omega)]
      · exact absurd h (by simp)

/-- The bins of a frame count how many of its matches were tracked for that many frames. -/
theorem C123_bins {frames : List (List Int)} {r : Tracks} (h : trackStatistics frames = .ok r) :
    r.bins.length = r.frames.length ∧
    ∀ (i : Nat) (F : FrameTracks) (row : List Nat), r.frames[i]? = some F → r.bins[i]? = some row →
      row.length = r.maxDuration ∧ ∀ n, 1 ≤ n → n ≤ r.maxDuration → row[n - 1]? = some (F.tracked.count n) := by
  obtain ⟨fs, hfs, h⟩ := bind_eq_ok h
  obtain ⟨d, hd, h⟩ := bind_eq_ok h
  obtain ⟨bins, hb, h⟩ := bind_eq_ok h
  obtain rfl := Outcome.ok.inj h
  have : ∀ (fs : List FrameTracks) (bins : List (List Nat)), binsLoop d fs = .ok bins → bins.length = fs.length ∧
      ∀ (i : Nat) (F : FrameTracks) (row : List Nat), fs[i]? = some F → bins[i]? = some row →
        binLoop (List.replicate d 0) F.tracked = .ok row := by
    intro fs
    induction fs with
    | nil =>
      intro bins hb
      obtain rfl := Outcome.ok.inj hb
      exact ⟨rfl, fun i F row h => absurd h (by simp)⟩
    | cons f fs ih =>
      intro bins hb
      obtain ⟨row, hr, hb⟩ := bind_eq_ok hb
      obtain ⟨rows, hrs, hb⟩ := bind_eq_ok hb
      obtain rfl := Outcome.ok.inj hb
      obtain ⟨h1, h2⟩ := ih rows hrs
      refine ⟨by simp [h1], fun i F row' hF hrow => ?_⟩
      cases i with
      | zero =>
        obtain rfl := Option.some.inj hF
        obtain rfl := Option.some.inj hrow
        exact hr
      | succ i => exact h2 i F row' (by simpa using hF) (by simpa using hrow)
  obtain ⟨h1, h2⟩ := this fs bins hb
  refine ⟨h1, fun i F row hF hrow => ?_⟩
  obtain ⟨h3, h4⟩ := binLoop_spec _ _ _ (h2 i F row hF hrow)
  refine ⟨by simpa using h3, fun n hn1 hn2 => ?_⟩
  change n ≤ d at hn2
  have := h4 (n - 1) 0 (by rw [List.getElem?_replicate, if_pos (by omega)])
  rw [this, zero_add, Nat.sub_add_cancel hn1]

theorem extreme_ok {better : Nat → Nat → Nat} {l : List Nat} (h : l ≠ []) : ∃ m, extreme better l = .ok m := by
  cases l with
  | nil => exact absurd rfl h
  | cons x xs => exact ⟨_, rfl⟩

theorem framesLoop_succeeds : ∀ (rest : List (List Int)) (last : Counts), (∀ f ∈ rest, f ≠ []) → ∃ fs, framesLoop last rest = .ok fs
  | [], _, _ => ⟨_, rfl⟩
  | ids :: rest, last, h => by
    have hne : (frameLoop last (fun _ => none) ids).1 ≠ [] := by
      rw [frameLoop_fst]
      simpa using h ids List.mem_cons_self
    obtain ⟨mx, hmx⟩ := extreme_ok (better := Nat.max) hne
    obtain ⟨mn, hmn⟩ := extreme_ok (better := Nat.min) hne
    obtain ⟨fs, hfs⟩ := framesLoop_succeeds rest (frameLoop last (fun _ => none) ids).2 fun f hf => h f (List.mem_cons_of_mem _ hf)
    refine ⟨⟨(frameLoop last (fun _ => none) ids).1, mean (frameLoop last (fun _ => none) ids).1, mx, mn⟩ :: fs, ?_⟩
    simp only [framesLoop, hmx, hmn, hfs, Outcome.bind_ok]

theorem binLoop_succeeds : ∀ (ns row : List Nat), (∀ n ∈ ns, 1 ≤ n ∧ n ≤ row.length) → ∃ row', binLoop row ns = .ok row'
  | [], row, _ => ⟨row, rfl⟩
  | n :: ns, row, h => by
    obtain ⟨h1, h2⟩ := h n List.mem_cons_self
    obtain ⟨k, rfl⟩ : ∃ k, n = k + 1 := ⟨n - 1, by omega⟩
    have hk : k < row.length := by omega
    obtain ⟨row', hr⟩ := binLoop_succeeds ns (row.set k (row[k] + 1)) fun m hm => by
      rw [List.length_set]
      exact h m (List.mem_cons_of_mem _ hm)
    refine ⟨row', ?_⟩
    simp only [binLoop, List.getElem?_eq_getElem hk]
    exact hr

/-- The statistics are computed if every frame has a match. -/
theorem C123_succeeds {frames : List (List Int)} (hn : frames ≠ []) (h : ∀ f ∈ frames, f ≠ []) : ∃ r, trackStatistics frames = .ok r := by
  obtain ⟨fs, hfs⟩ := framesLoop_succeeds frames (fun _ => none) h
  obtain ⟨h1, h2⟩ := framesLoop_spec frames (fun _ => none) [] fs (fun x => by simp [runLength]) hfs
  have hne : fs.map FrameTracks.max ≠ [] := by
    intro e
    have := congrArg List.length e
    simp only [List.length_map, h1, List.length_nil] at this
    exact hn (List.eq_nil_of_length_eq_zero this)
  obtain ⟨d, hd⟩ := extreme_ok (better := Nat.max) hne
  obtain ⟨-, hdm⟩ := extreme_max hd
  have hall : ∀ F ∈ fs, ∀ n ∈ F.tracked, 1 ≤ n ∧ n ≤ d := by
    intro F hF n hn
    obtain ⟨i, hi⟩ := List.mem_iff_getElem?.1 hF
    obtain ⟨hi', -⟩ := List.getElem?_eq_some_iff.1 hi
    have hi2 : frames[i]? = some (frames[i]'(h1 ▸ hi')) := List.getElem?_eq_getElem (h1 ▸ hi')
    obtain ⟨h3, -, h4, -⟩ := h2 i F _ hi hi2
    refine ⟨?_, ((extreme_max h4).2 n hn).trans (hdm _ (List.mem_map_of_mem hF))⟩
    rw [h3] at hn
    obtain ⟨id, hid, rfl⟩ := List.mem_map.1 hn
    rw [List.append_nil]
    exact (runLength_isStreak frames i id hi2 hid).1
  have hbins : ∀ (fs : List FrameTracks), (∀ F ∈ fs, ∀ n ∈ F.tracked, 1 ≤ n ∧ n ≤ d) → ∃ bins, binsLoop d fs = .ok bins := by
    intro fs
    induction fs with
    | nil => exact fun _ => ⟨_, rfl⟩
    | cons F fs ih =>
      intro hall
      obtain ⟨row, hr⟩ := binLoop_succeeds F.tracked (List.replicate d 0) fun n hn => by
        rw [List.length_replicate]
        exact hall F List.mem_cons_self n hn
      obtain ⟨rows, hrs⟩ := ih fun G hG => hall G (List.mem_cons_of_mem _ hG)
      refine ⟨row :: rows, ?_⟩
      simp only [binsLoop, hr, hrs, Outcome.bind_ok]
  obtain ⟨bins, hb⟩ := hbins fs hall
  refine ⟨⟨fs, d, bins⟩, ?_⟩
  simp only [trackStatistics, hfs, hd, hb, Outcome.bind_ok]

/-- One frame without a match stops the script: the largest of no numbers cannot be assigned. -/
theorem C123_fails_empty_frame {frames : List (List Int)} (h : [] ∈ frames) : trackStatistics frames = .throws := by
  have : ∀ (rest : List (List Int)) (last : Counts), [] ∈ rest → framesLoop last rest = .throws := by
    intro rest
    induction rest with
    | nil => exact fun _ h => absurd h List.not_mem_nil
    | cons ids rest ih =>
      intro last h
      by_cases he : ids = []
      · subst he
        rfl
      · have hne : (frameLoop last (fun _ => none) ids).1 ≠ [] := by
          rw [frameLoop_fst]
          simpa using he
        obtain ⟨mx, hmx⟩ := extreme_ok (better := Nat.max) hne
        obtain ⟨mn, hmn⟩ := extreme_ok (better := Nat.min) hne
        rcases List.mem_cons.1 h with h | h
        · exact absurd h.symm he
        · simp only [framesLoop, hmx, hmn, Outcome.bind_ok, ih _ h]
          rfl
  simp only [trackStatistics, this frames _ h]
  rfl

/-- Three frames: 7 is in all of them; 3 leaves and comes back. -/
example : ∃ r, trackStatistics [[7, 3], [7], [3, 7]] = .ok r ∧ r.maxDuration = 3 ∧ r.frames.map (·.tracked) = [[1, 1], [2], [1, 3]] ∧
    r.bins = [[2, 0, 0], [0, 1, 0], [1, 0, 1]] := ⟨_, rfl, rfl, rfl, rfl⟩

/-! ## C124 -/

/-- The share of a frame's matches: those tracked from the frame before, divided by all matches of the frame before. There is none for the
first frame, nor after a frame without matches. -/
theorem C124_fraction {tracked total : List Nat} {r : List (Option ℚ)} (h : trackRetention tracked total = .ok r)
    (hl : tracked.length = total.length) (hn : tracked ≠ []) :
    r.length = tracked.length ∧ r[0]? = some none ∧
    ∀ (i a b : Nat), tracked[i + 1]? = some a → total[i]? = some b →
      (b = 0 → r[i + 1]? = some none) ∧ (b ≠ 0 → ∃ q : ℚ, r[i + 1]? = some (some q) ∧ q * b = a) := by
  unfold trackRetention at h
  split at h
  · obtain rfl := Outcome.ok.inj h
    have hpos := List.length_pos_of_ne_nil hn
    refine ⟨?_, rfl, fun i a b ha hb => ?_⟩
    · simp only [List.length_cons, List.length_zipWith, List.length_tail, List.length_dropLast]
      omega
    · have e : (none :: List.zipWith fraction tracked.tail total.dropLast)[i + 1]? = some (fraction a b) := by
        obtain ⟨hi, -⟩ := List.getElem?_eq_some_iff.1 ha
        rw [List.getElem?_cons_succ, List.getElem?_zipWith, List.getElem?_tail, ha, List.getElem?_dropLast, if_pos (by omega), hb]
      rw [e]
      unfold fraction
      refine ⟨fun h0 => by rw [if_pos h0], fun h0 => ⟨_, by rw [if_neg h0], ?_⟩⟩
      have : (b : ℚ) ≠ 0 := by exact_mod_cast h0
      field_simp
  · exact absurd h (by simp)

/-- The script computes it for every sequence of messages. -/
theorem C124_succeeds {tracked total : List Nat} (hl : tracked.length = total.length) : ∃ r, trackRetention tracked total = .ok r := by
  unfold trackRetention
  rw [if_pos (by rw [List.length_tail, List.length_dropLast, hl])]
  exact ⟨_, rfl⟩

/-- The mean is that of the shares there are. -/
theorem C124_mean {l : List (Option ℚ)} {m : ℚ} (h : meanRetention l = some m) :
    l.filterMap id ≠ [] ∧ m * (l.filterMap id).length = (l.filterMap id).sum := by
  unfold meanRetention at h
  dsimp only at h
  split at h
  · exact absurd h (by simp)
  · rename_i hn
    obtain rfl := Option.some.inj h
    have : ((l.filterMap id).length : ℚ) ≠ 0 := by exact_mod_cast hn
    refine ⟨fun e => hn (by rw [e]; rfl), ?_⟩
    field_simp

section Tracker

open Stereo

variable {I K : Type} [Field K] [LinearOrder K]

/-- For the statistics of two successive frames of the stereo tracker, the number of tracked matches is that of the ids of the frame
before that are still there, and the share lies between 0 and 1. -/
theorem C124_share_of_the_tracker (v : Vision I K) (hv : v.Sound) (cfg : TrackerConfig K) (df : Option (DistanceFilter K))
    (frames : List (I × I)) (j : Nat) (t t' : Track K) (st st' : Stats)
    (h : (run v cfg frames (Tracker.init df)).1[j]? = some (.ok (t, st)))
    (h' : (run v cfg frames (Tracker.init df)).1[j + 1]? = some (.ok (t', st'))) :
    st'.trackedMatchCount = (st.matchIds.filter fun id => id ∈ st'.matchIds).length ∧ st.totalMatchCount = st.matchIds.length ∧
    ∀ q, fraction st'.trackedMatchCount st.totalMatchCount = some q → 0 ≤ q ∧ q ≤ 1 := by
  have hs := C92_statistics v hv cfg df frames j t st h
  have hs' := C92_statistics v hv cfg df frames (j + 1) t' st' h'
  have hi := C50_increasing v hv cfg df frames j t st h
  have hi' := C50_increasing v hv cfg df frames (j + 1) t' st' h'
  obtain ⟨f, s, os, hs1, ps, s1, hf, -, -, -, -, ht, -, -, -⟩ := run_ok hv cfg df frames j t st h
  obtain ⟨f', s', os', hs1', ps', s1', hf', -, -, -, -, ht', -, -, -⟩ := run_ok hv cfg df frames (j + 1) t' st' h'
  have e1 : st.matchIds = t.ids := hs.2.2.2.1
  have e2 : st'.matchIds = t'.ids := hs'.2.2.2.1
  have hlen : t.pairs.length = t.ids.length := by
    rw [ht]
    simp [ofObs]
  have htr := (C92_tracked v hv cfg df frames j f f' _ _ st st' hf hf' (by rw [h, ht]) (by rw [h', ht'])).1
  -- both count the ids in common
  have nd := hi.imp (fun h => ne_of_lt h) (S := fun a b : Int => a ≠ b)
  have nd' := hi'.imp (fun h => ne_of_lt h) (S := fun a b : Int => a ≠ b)
  have hcount : st'.trackedMatchCount = (t.ids.filter fun id => id ∈ t'.ids).length := by
    have e3 : st'.trackedMatchCount = (t'.ids.filter fun id => id ∈ t.ids).length := by
      rw [htr, ht, ht']
      simp only [ofObs, List.filter_map, List.length_map]
      rfl
    rw [e3]
    have hperm : (t'.ids.filter fun id => id ∈ t.ids).Perm (t.ids.filter fun id => id ∈ t'.ids) := by
      rw [List.perm_ext_iff_of_nodup (List.Nodup.filter _ nd') (List.Nodup.filter _ nd)]
      intro a
      simp only [List.mem_filter, decide_eq_true_eq]
      exact and_comm
    exact hperm.length_eq
  have htot : st.totalMatchCount = t.ids.length := by rw [hs.2.1, hlen]
  refine ⟨by rw [hcount, e1, e2], by rw [htot, e1], fun q hq => ?_⟩
  unfold fraction at hq
  split at hq
  · exact absurd hq (by simp)
  · rename_i h0
    obtain rfl := Option.some.inj hq
    have hpos : (0 : ℚ) < st.totalMatchCount := by
      have : 0 < st.totalMatchCount := Nat.pos_of_ne_zero h0
      exact_mod_cast this
    refine ⟨div_nonneg (Nat.cast_nonneg _) hpos.le, ?_⟩
    rw [div_le_one hpos]
    have : st'.trackedMatchCount ≤ st.totalMatchCount := by
      rw [hcount, htot]
      exact List.length_filter_le _ _
    exact_mod_cast this

end Tracker

/-- Three messages: 10 matches; 5 of them tracked, none new; then nothing. The mean leaves out the first. -/
example : trackRetention [0, 5, 0] [10, 5, 0] = .ok [none, some (1 / 2), some 0] ∧ meanRetention [none, some (1 / 2), some 0] = some (1 / 4) := by
  decide +kernel

end TrackStatistics

end Serpent
