import Verif.Model.Scheduling
import Mathlib.Order.Monotone.Basic
import Mathlib.Tactic.Push
import Mathlib.Tactic.Tauto

/-!
# Helper lemmas: invariants of the system of waiting callbacks
-/

namespace Serpent

namespace Schedule

/-- The number of optimised states, as a function of the named keys. -/
def optOf (cfg : Cfg) (s : Node) : Nat :=
  let a := s.poses
  let b := if cfg.reg then min a (s.regKey + 1) else a
  if cfg.stereo then min b (max s.stereoKeys 1) else b

/-- Some factors that trigger an optimisation are enabled. -/
def Cfg.Optimises (cfg : Cfg) : Prop := cfg.imu = true ∨ cfg.reg = true ∨ cfg.stereo = true

/-- Number of states whose time has been selected. -/
def Node.selected (s : Node) : Nat := s.done + if s.phase = .imu ∨ s.phase = .bias then 1 else 0

/-- Invariant on the counters. -/
structure Counts (cfg : Cfg) (s : Node) : Prop where
  sent : s.sent = s.done + if s.phase = .bias then 1 else 0
  poses_le : s.poses ≤ s.sent
  opt_le : s.opt ≤ s.poses
  poses_opt : s.poses ≤ s.opt + 1
  opt_pos : 0 < s.poses → 0 < s.opt
  imuRun : s.imuRun = true → 0 < s.poses ∧ s.poses < s.sent
  bias_le : s.bias ≤ s.opt
  done_bias : 0 < s.done → s.done ≤ s.bias + 1 ∧ 0 < s.bias
  normals : s.normals ≤ s.done
  scans_normals : s.scans ≤ s.normals
  scans_poses : s.scans ≤ s.poses
  maps_normals : s.maps ≤ s.normals
  maps_opt : s.maps ≤ s.opt
  mapsTaken : s.mapsTaken ≤ s.maps
  reg : s.regSent + s.queue = s.scans - 1
  s2m : cfg.s2m = true → s.regSent + s.mapRun.toNat = s.mapsTaken
  s2s : cfg.s2m = false → s.queue = 0
  regKey : s.regKey ≤ s.regSent
  noReg : cfg.reg = false → s.normals = 0
  stereoKeys : s.stereoKeys ≤ s.poses
  baroTaken : s.baroTaken ≤ s.baroSent
  baroSent : s.baroSent ≤ s.done
  baroRun : s.baroRun = true → 0 < s.baroTaken
  mapRun : s.mapRun = true → 0 < s.mapsTaken
  noBaro : cfg.baro = false → s.baroSent = 0

theorem counts_optimise {cfg : Cfg} {s : Node} (c : Prop) [Decidable c] (k : Nat) (h : Counts cfg s) (hk : c → k < s.poses)
    (ho : c → s.opt ≤ k + 1) : Counts cfg (optimiseIf c k s) := by
  unfold optimiseIf
  split
  · rename_i hc
    have := hk hc
    have := ho hc
    have := h.maps_opt
    have := h.bias_le
    have := h.poses_opt
    exact { h with
      opt_le := by show k + 1 ≤ s.poses; omega
      poses_opt := by show s.poses ≤ k + 1 + 1; omega
      opt_pos := fun _ => Nat.succ_pos k
      bias_le := by show s.bias ≤ k + 1; omega
      maps_opt := by show s.maps ≤ k + 1; omega }
  · exact h

theorem counts_step {cfg : Cfg} {d : Data} {s s' : Node} {e : Ev} (h : Counts cfg s) (ho : 0 < s.poses → s.opt = optOf cfg s)
    (hs : step cfg d s e = some s') : Counts cfg s' := by
  obtain ⟨h1, h2, h3, h4, h5, h6, h7, h8, h9, h10, h11, h12, h13, h14, h15, h16, h17, h18, h19, h20, h21, h22, h23, h24, h25⟩ := id h
  cases e
  case cloud =>
    simp only [step] at hs
    split at hs
    · rename_i hc
      obtain ⟨ha, hb⟩ := hc
      obtain rfl := Option.some.inj hs
      rw [ha] at h1
      exact { h with sent := by simpa using h1 }
    · cases hs
  case sensor =>
    simp only [step] at hs
    split at hs
    · obtain rfl := Option.some.inj hs
      exact { h with }
    · cases hs
  case frame t =>
    simp only [step] at hs
    split at hs
    · obtain rfl := Option.some.inj hs
      exact { h with }
    · cases hs
  case pressure =>
    simp only [step] at hs
    split at hs
    · rename_i hc
      obtain rfl := Option.some.inj hs
      exact { h with
        baroTaken := by show s.baroTaken ≤ s.baroSent + 1; omega
        baroSent := hc.2
        noBaro := fun hb => by rw [hc.1] at hb; cases hb }
    · cases hs
  case select =>
    simp only [step] at hs
    split at hs
    · rename_i hc
      obtain rfl := Option.some.inj hs
      rw [hc.1] at h1
      have h1' : s.sent = s.done := by simpa using h1
      by_cases hq : cfg.stereo = true ∧ cfg.onlyGraph = true ∧ d.hasFrame s.done = true
      · rw [if_pos hq]
        exact { h with sent := by simpa [Node.publishFrame] using h1' }
      · rw [if_neg hq]
        exact { h with sent := by simpa using h1' }
    · cases hs
  case send =>
    simp only [step] at hs
    split at hs
    · rename_i hc
      obtain rfl := Option.some.inj hs
      rw [hc.1] at h1
      have h1' : s.sent = s.done := by simpa using h1
      exact { h with
        sent := by simp [h1']
        poses_le := by show s.poses ≤ s.sent + 1; omega
        imuRun := fun hb => by have := h6 hb; show 0 < s.poses ∧ s.poses < s.sent + 1; omega }
    · cases hs
  case finish =>
    simp only [step] at hs
    split at hs
    · rename_i hc
      obtain rfl := Option.some.inj hs
      rw [hc.1] at h1
      have h1' : s.sent = s.done + 1 := by simpa using h1
      have hb : s.bias = max s.done 1 := hc.2.1
      exact { h with
        sent := by simp [h1']
        done_bias := fun _ => by show s.done + 1 ≤ s.bias + 1 ∧ 0 < s.bias; omega
        normals := by show s.normals ≤ s.done + 1; omega
        baroSent := by show s.baroSent ≤ s.done + 1; omega }
    · cases hs
  case biases =>
    simp only [step] at hs
    split at hs
    · rename_i hc
      obtain rfl := Option.some.inj hs
      exact { h with
        bias_le := hc.1
        done_bias := fun hd => by have := h8 hd; show s.done ≤ s.bias + 1 + 1 ∧ 0 < s.bias + 1; omega }
    · cases hs
  case filtered =>
    simp only [step] at hs
    split at hs
    · rename_i hc
      obtain rfl := Option.some.inj hs
      exact { h with
        normals := hc.2.1
        scans_normals := by show s.scans ≤ s.normals + 1; omega
        maps_normals := by show s.maps ≤ s.normals + 1; omega
        noReg := fun hb => by rw [hc.1] at hb; cases hb }
    · cases hs
  case track =>
    simp only [step] at hs
    split at hs
    · cases hs
    · split at hs
      · obtain rfl := Option.some.inj hs
        exact { h with }
      · cases hs
  case initial =>
    simp only [step] at hs
    split at hs
    · rename_i hc
      obtain ⟨ha, hb, -⟩ := hc
      obtain rfl := Option.some.inj hs
      have : s.maps = 0 := by omega
      have : s.stereoKeys = 0 := by omega
      exact { h with
        poses_le := hb
        opt_le := le_refl _
        poses_opt := by show 1 ≤ 1 + 1; omega
        opt_pos := fun _ => Nat.one_pos
        imuRun := fun hi => absurd (h6 hi).1 (by omega)
        bias_le := by show s.bias ≤ 1; omega
        scans_poses := by show s.scans ≤ 1; omega
        maps_opt := by show s.maps ≤ 1; omega
        stereoKeys := by show s.stereoKeys ≤ 1; omega }
    · cases hs
  case imuStart =>
    simp only [step] at hs
    split at hs
    · rename_i hc
      obtain rfl := Option.some.inj hs
      exact { h with imuRun := fun _ => ⟨hc.2.1, hc.2.2.1⟩ }
    · cases hs
  case imuFinish =>
    simp only [step] at hs
    split at hs
    · rename_i hc
      obtain ⟨ha, hb⟩ := hc
      obtain rfl := Option.some.inj hs
      have h6' := h6 ha
      apply counts_optimise
      · exact { h with
          poses_le := by show s.poses + 1 ≤ s.sent; omega
          opt_le := by show s.opt ≤ s.poses + 1; omega
          poses_opt := by show s.poses + 1 ≤ s.opt + 1; omega
          opt_pos := fun _ => by show 0 < s.opt; omega
          imuRun := fun hi => by cases hi
          scans_poses := by show s.scans ≤ s.poses + 1; omega
          stereoKeys := by show s.stereoKeys ≤ s.poses + 1; omega }
      · intro _; exact Nat.lt_succ_self _
      · intro _; show s.opt ≤ s.poses + 1; omega
    · cases hs
  case stereoStart =>
    simp only [step] at hs
    split at hs
    · split at hs
      · obtain rfl := Option.some.inj hs
        exact { h with }
      · cases hs
    · cases hs
  case stereoRound =>
    simp only [step] at hs
    split at hs
    · cases hs
    · split at hs
      · rename_i t _ hc
        obtain rfl := Option.some.inj hs
        unfold stereoRound
        by_cases ht : t < d.T s.stereoKeys
        · rw [if_pos ht]; exact { h with }
        · rw [if_neg ht]
          apply counts_optimise
          · exact { h with stereoKeys := hc }
          · intro _; exact hc
          · intro hm
            have := ho (by omega)
            have hm' := hm.1
            have hk := hm.2
            show s.opt ≤ s.stereoKeys + 1
            rw [this]
            unfold minKey at hm'
            unfold optOf
            revert hm'
            cases cfg.reg <;> cases cfg.stereo <;> simp <;> omega
      · cases hs
  case register =>
    simp only [step] at hs
    split at hs
    · rename_i hc
      obtain rfl := Option.some.inj hs
      apply counts_optimise
      · exact { h with regKey := hc.1 }
      · intro hm; show s.regKey + 1 < s.poses; omega
      · intro hm
        have := ho (by omega)
        show s.opt ≤ s.regKey + 1 + 1
        rw [this]
        unfold minKey at hm
        unfold optOf
        revert hm
        cases cfg.reg <;> cases cfg.stereo <;> simp <;> omega
    · cases hs
  case baroStart =>
    simp only [step] at hs
    split at hs
    · rename_i hc
      obtain rfl := Option.some.inj hs
      exact { h with
        baroTaken := hc.2.1
        baroRun := fun _ => Nat.succ_pos _ }
    · cases hs
  case baroFinish =>
    simp only [step] at hs
    split at hs
    · obtain rfl := Option.some.inj hs
      exact { h with baroRun := fun hb => by cases hb }
    · cases hs
  case scan =>
    simp only [step] at hs
    split at hs
    · rename_i hc
      obtain rfl := Option.some.inj hs
      cases hm : cfg.s2m <;> by_cases hz : 0 < s.scans
      · exact { h with
          scans_normals := hc.1
          scans_poses := hc.2.1
          reg := by simp [hz]; omega
          s2m := fun hb => by rw [hm] at hb; cases hb
          s2s := fun _ => by simpa using h17 hm
          regKey := by simp [hz]; omega }
      · exact { h with
          scans_normals := hc.1
          scans_poses := hc.2.1
          reg := by simp [hz]; omega
          s2m := fun hb => by rw [hm] at hb; cases hb
          s2s := fun _ => by simpa using h17 hm
          regKey := by simp [hz]; omega }
      · exact { h with
          scans_normals := hc.1
          scans_poses := hc.2.1
          reg := by simp [hz]; omega
          s2m := fun hb => by simpa using h16 hm
          s2s := fun hb => by rw [hm] at hb; cases hb
          regKey := by simp; omega }
      · exact { h with
          scans_normals := hc.1
          scans_poses := hc.2.1
          reg := by simp [hz]; omega
          s2m := fun hb => by simpa using h16 hm
          s2s := fun hb => by rw [hm] at hb; cases hb
          regKey := by simp; omega }
    · cases hs
  case map =>
    simp only [step] at hs
    split at hs
    · rename_i hc
      obtain rfl := Option.some.inj hs
      exact { h with
        maps_normals := hc.1
        maps_opt := hc.2.1
        mapsTaken := by show s.mapsTaken ≤ s.maps + 1; omega }
    · cases hs
  case mapStart =>
    simp only [step] at hs
    split at hs
    · rename_i hc
      obtain rfl := Option.some.inj hs
      exact { h with
        mapsTaken := hc.2.1
        s2m := fun hm => by
          have := h16 hm
          rw [hc.1] at this
          simp only [Bool.toNat_false, Bool.toNat_true] at this ⊢
          omega
        mapRun := fun _ => Nat.succ_pos _ }
    · cases hs
  case mapFinish =>
    simp only [step] at hs
    split at hs
    · rename_i hc
      obtain rfl := Option.some.inj hs
      have hq := hc.2
      exact { h with
        reg := by show s.regSent + 1 + (s.queue - 1) = s.scans - 1; omega
        s2m := fun hm => by
          have := h16 hm
          rw [hc.1] at this
          simp only [Bool.toNat_false, Bool.toNat_true] at this ⊢
          omega
        s2s := fun hm => by have := h17 hm; show s.queue - 1 = 0; omega
        regKey := by show s.regKey ≤ s.regSent + 1; omega
        mapRun := fun hb => by cases hb }
    · cases hs

theorem optOf_step {cfg : Cfg} {d : Data} {s s' : Node} {e : Ev} (hf : cfg.Optimises) (h : Counts cfg s)
    (ho : 0 < s.poses → s.opt = optOf cfg s)
    (hs : step cfg d s e = some s') : 0 < s'.poses → s'.opt = optOf cfg s' := by
  obtain ⟨h1, h2, h3, h4, h5, h6, h7, h8, h9, h10, h11, h12, h13, h14, h15, h16, h17, h18, h19, h20, h21, h22, h23, h24, h25⟩ := id h
  cases e
  case imuFinish =>
    simp only [step] at hs
    split at hs
    · rename_i hc
      obtain ⟨ha, hb⟩ := hc
      obtain rfl := Option.some.inj hs
      intro _
      have h6' := h6 ha
      have ho' := ho h6'.1
      unfold optimiseIf minKey optOf
      unfold optOf at ho'
      unfold Cfg.Optimises at hf
      rw [hb] at ho'
      revert ho' hf
      cases cfg.imu <;> cases cfg.reg <;> cases cfg.stereo <;> simp <;> (try split) <;> (try simp) <;> omega
    · cases hs
  case stereoRound =>
    simp only [step] at hs
    split at hs
    · cases hs
    · split at hs
      · rename_i t _ hc
        obtain rfl := Option.some.inj hs
        unfold stereoRound
        by_cases ht : t < d.T s.stereoKeys
        · rw [if_pos ht]; exact ho
        · rw [if_neg ht]
          intro _
          have ho' := ho (by omega)
          unfold optimiseIf minKey optOf
          unfold optOf at ho'
          revert ho'
          cases cfg.reg <;> cases cfg.stereo <;> simp <;> split <;> simp <;> omega
      · cases hs
  case register =>
    simp only [step] at hs
    split at hs
    · rename_i hc
      obtain rfl := Option.some.inj hs
      intro _
      have ho' := ho (by omega)
      have hr : cfg.reg = true := by
        by_contra hr
        have := h19 (by simpa using hr)
        omega
      unfold optimiseIf minKey optOf
      unfold optOf at ho'
      rw [hr] at ho' ⊢
      revert ho'
      cases cfg.stereo <;> simp <;> split <;> simp <;> omega
    · cases hs
  case initial =>
    simp only [step] at hs
    split at hs
    · rename_i hc
      obtain rfl := Option.some.inj hs
      intro _
      unfold optOf
      cases cfg.reg <;> cases cfg.stereo <;> simp <;> omega
    · cases hs
  case select =>
    simp only [step] at hs
    split at hs
    · obtain rfl := Option.some.inj hs
      by_cases hq : cfg.stereo = true ∧ cfg.onlyGraph = true ∧ d.hasFrame s.done = true
      · rw [if_pos hq]; exact ho
      · rw [if_neg hq]; exact ho
    · cases hs
  case track =>
    simp only [step] at hs
    split at hs
    · cases hs
    · split at hs
      · obtain rfl := Option.some.inj hs; exact ho
      · cases hs
  case stereoStart =>
    simp only [step] at hs
    split at hs
    · split at hs
      · obtain rfl := Option.some.inj hs; exact ho
      · cases hs
    · cases hs
  all_goals
    simp only [step] at hs
    split at hs
    · obtain rfl := Option.some.inj hs; exact ho
    · cases hs

theorem counts_init (cfg : Cfg) : Counts cfg {} where
  sent := rfl
  poses_le := le_refl _
  opt_le := le_refl _
  poses_opt := Nat.zero_le _
  opt_pos := fun h => h
  imuRun := fun h => by cases h
  bias_le := le_refl _
  done_bias := fun h => by cases h
  normals := le_refl _
  scans_normals := le_refl _
  scans_poses := le_refl _
  maps_normals := le_refl _
  maps_opt := le_refl _
  mapsTaken := le_refl _
  reg := rfl
  s2m := fun _ => rfl
  s2s := fun _ => rfl
  regKey := le_refl _
  noReg := fun _ => rfl
  stereoKeys := le_refl _
  baroTaken := le_refl _
  baroSent := le_refl _
  baroRun := fun h => by cases h
  mapRun := fun h => by cases h
  noBaro := fun _ => rfl

theorem reach_counts {cfg : Cfg} {d : Data} (hf : cfg.Optimises) {s : Node} (h : Reach cfg d s) :
    Counts cfg s ∧ (0 < s.poses → s.opt = optOf cfg s) := by
  induction h with
  | init => exact ⟨counts_init cfg, fun h => absurd h (Nat.lt_irrefl 0)⟩
  | step e _ hs ih => exact ⟨counts_step ih.1 ih.2 hs, optOf_step hf ih.1 ih.2 hs⟩

/-! ### Stereo frames -/

/-- Features of this stamp are still to be handled. -/
def Node.Pending (s : Node) (f : Int) : Prop := f ∈ s.images ∨ f ∈ s.features ∨ s.stereoRun = some f

/-- Invariant on the stereo frames. -/
structure Frames (cfg : Cfg) (d : Data) (s : Node) : Prop where
  handled : ∀ f ∈ s.frames, ∀ k : Nat, d.T k ≤ f → s.Pending f ∨ k < s.stereoKeys
  selected : cfg.stereo = true → ∀ k < s.selected,
    if cfg.onlyGraph then d.hasFrame k = true → d.T k ∈ s.frames else ∃ f ∈ s.frames, d.T k ≤ f
  none : cfg.stereo = false → s.images = [] ∧ s.features = [] ∧ s.stereoRun = none

theorem frames_init (cfg : Cfg) (d : Data) : Frames cfg d {} where
  handled := fun f hf => by cases hf
  selected := fun _ k hk => absurd hk (by simp [Node.selected])
  none := fun _ => ⟨rfl, rfl, rfl⟩

theorem frames_congr {cfg : Cfg} {d : Data} {s s' : Node} (h : Frames cfg d s) (h1 : s'.frames = s.frames)
    (h2 : s'.images = s.images) (h3 : s'.features = s.features) (h4 : s'.stereoRun = s.stereoRun)
    (h5 : s'.stereoKeys = s.stereoKeys) (h6 : s'.selected = s.selected) : Frames cfg d s' where
  handled := by unfold Node.Pending; rw [h1, h2, h3, h4, h5]; exact h.handled
  selected := by rw [h1, h6]; exact h.selected
  none := by rw [h2, h3, h4]; exact h.none

theorem frames_optimise {cfg : Cfg} {d : Data} {s : Node} (c : Prop) [Decidable c] (k : Nat) (h : Frames cfg d s) :
    Frames cfg d (optimiseIf c k s) := by
  unfold optimiseIf
  split
  · exact frames_congr h rfl rfl rfl rfl rfl rfl
  · exact h

theorem frames_publish {cfg : Cfg} {d : Data} {s : Node} (t : Int) (h : Frames cfg d s) (hst : cfg.stereo = true) :
    Frames cfg d (s.publishFrame t) where
  handled := by
    intro f hf k hk
    rcases List.mem_append.1 hf with hf | hf
    · rcases h.handled f hf k hk with (hp | hp | hp) | hp
      · exact .inl (.inl (List.mem_append_left _ hp))
      · exact .inl (.inr (.inl hp))
      · exact .inl (.inr (.inr hp))
      · exact .inr hp
    · exact .inl (.inl (List.mem_append_right _ hf))
  selected := by
    intro _ k hk
    have := h.selected hst k hk
    cases ho : cfg.onlyGraph
    · rw [ho] at this
      simp only [Bool.false_eq_true, if_false] at this ⊢
      obtain ⟨f, hf, hk⟩ := this
      exact ⟨f, List.mem_append_left _ hf, hk⟩
    · rw [ho] at this
      simp only [if_true] at this ⊢
      exact fun hh => List.mem_append_left _ (this hh)
  none := fun hb => by rw [hst] at hb; cases hb

theorem frames_step {cfg : Cfg} {d : Data} (hT : StrictMono d.T) {s s' : Node} {e : Ev} (h : Frames cfg d s)
    (hs : step cfg d s e = some s') : Frames cfg d s' := by
  cases e
  case cloud =>
    simp only [step] at hs
    split at hs
    · rename_i hc
      obtain rfl := Option.some.inj hs
      exact frames_congr h rfl rfl rfl rfl rfl (by simp [Node.selected, hc.1])
    · cases hs
  case frame t =>
    simp only [step] at hs
    split at hs
    · rename_i hc
      obtain rfl := Option.some.inj hs
      exact frames_publish t h hc.1
    · cases hs
  case select =>
    simp only [step] at hs
    split at hs
    · rename_i hc
      obtain ⟨ha, hr⟩ := hc
      obtain rfl := Option.some.inj hs
      have hsel : s.selected = s.done := by simp [Node.selected, ha]
      by_cases hq : cfg.stereo = true ∧ cfg.onlyGraph = true ∧ d.hasFrame s.done = true
      · rw [if_pos hq]
        have h' := frames_publish (d.T s.done) h hq.1
        refine ⟨h'.handled, ?_, h'.none⟩
        intro hst k hk
        have hk' : k < s.done + 1 := hk
        rw [hq.2.1, if_pos (by rfl)]
        intro hf
        rcases Nat.lt_succ_iff_lt_or_eq.1 hk' with hk' | rfl
        · have := h.selected hst k (by rw [hsel]; exact hk')
          rw [hq.2.1, if_pos (by rfl)] at this
          exact List.mem_append_left _ (this hf)
        · exact List.mem_append_right _ (List.mem_singleton.2 rfl)
      · rw [if_neg hq]
        refine ⟨h.handled, ?_, h.none⟩
        intro hst k hk
        have hk' : k < s.done + 1 := hk
        rcases Nat.lt_succ_iff_lt_or_eq.1 hk' with hk' | rfl
        · exact h.selected hst k (by rw [hsel]; exact hk')
        · have hr' := hr hst
          cases ho : cfg.onlyGraph
          · rw [ho] at hr'
            simpa using hr'
          · simp only [if_true]
            intro hf
            exact absurd ⟨hst, ho, hf⟩ hq
    · cases hs
  case send =>
    simp only [step] at hs
    split at hs
    · rename_i hc
      obtain rfl := Option.some.inj hs
      exact frames_congr h rfl rfl rfl rfl rfl (by simp [Node.selected, hc.1])
    · cases hs
  case finish =>
    simp only [step] at hs
    split at hs
    · rename_i hc
      obtain rfl := Option.some.inj hs
      exact frames_congr h rfl rfl rfl rfl rfl (by simp [Node.selected, hc.1])
    · cases hs
  case track =>
    simp only [step] at hs
    split at hs
    · cases hs
    · rename_i f rest hi
      split at hs
      · obtain rfl := Option.some.inj hs
        refine ⟨?_, h.selected, ?_⟩
        · intro g hg k hk
          rcases h.handled g hg k hk with (hp | hp | hp) | hp
          · rw [hi] at hp
            rcases List.mem_cons.1 hp with rfl | hp
            · exact .inl (.inr (.inl (List.mem_append_right _ (List.mem_singleton.2 rfl))))
            · exact .inl (.inl hp)
          · exact .inl (.inr (.inl (List.mem_append_left _ hp)))
          · exact .inl (.inr (.inr hp))
          · exact .inr hp
        · intro hst
          have := (h.none hst).1
          rw [hi] at this
          cases this
      · cases hs
  case imuFinish =>
    simp only [step] at hs
    split at hs
    · obtain rfl := Option.some.inj hs
      apply frames_optimise
      exact frames_congr h rfl rfl rfl rfl rfl rfl
    · cases hs
  case register =>
    simp only [step] at hs
    split at hs
    · obtain rfl := Option.some.inj hs
      apply frames_optimise
      exact frames_congr h rfl rfl rfl rfl rfl rfl
    · cases hs
  case stereoStart =>
    simp only [step] at hs
    split at hs
    · rename_i f rest hi hr
      split at hs
      · obtain rfl := Option.some.inj hs
        refine ⟨?_, h.selected, ?_⟩
        · intro g hg k hk
          rcases h.handled g hg k hk with (hp | hp | hp) | hp
          · exact .inl (.inl hp)
          · rw [hi] at hp
            rcases List.mem_cons.1 hp with rfl | hp
            · exact .inl (.inr (.inr rfl))
            · exact .inl (.inr (.inl hp))
          · rw [hr] at hp; cases hp
          · exact .inr hp
        · intro hst
          have := (h.none hst).2.1
          rw [hi] at this
          cases this
      · cases hs
    · cases hs
  case stereoRound =>
    simp only [step] at hs
    split at hs
    · cases hs
    · rename_i t hr
      split at hs
      · rename_i hc
        obtain rfl := Option.some.inj hs
        have hst : cfg.stereo = true := by
          by_contra hst
          have := (h.none (by simpa using hst)).2.2
          rw [hr] at this
          cases this
        unfold stereoRound
        by_cases ht : t < d.T s.stereoKeys
        · rw [if_pos ht]
          refine ⟨?_, h.selected, fun hb => by rw [hst] at hb; cases hb⟩
          intro g hg k hk
          rcases h.handled g hg k hk with (hp | hp | hp) | hp
          · exact .inl (.inl hp)
          · exact .inl (.inr (.inl hp))
          · rw [hr] at hp
            obtain rfl := Option.some.inj hp
            exact .inr (hT.lt_iff_lt.1 (lt_of_le_of_lt hk ht))
          · exact .inr hp
        · rw [if_neg ht]
          apply frames_optimise
          refine ⟨?_, h.selected, fun hb => by rw [hst] at hb; cases hb⟩
          intro g hg k hk
          rcases h.handled g hg k hk with (hp | hp | hp) | hp
          · exact .inl (.inl hp)
          · exact .inl (.inr (.inl hp))
          · rw [hr] at hp
            obtain rfl := Option.some.inj hp
            by_cases he : t = d.T s.stereoKeys
            · refine .inr ?_
              rw [he] at hk
              exact Nat.lt_succ_of_le (hT.le_iff_le.1 hk)
            · exact .inl (.inr (.inr (by simp [he])))
          · exact .inr (Nat.lt_succ_of_lt hp)
      · cases hs
  all_goals
    simp only [step] at hs
    split at hs
    · obtain rfl := Option.some.inj hs
      exact frames_congr h rfl rfl rfl rfl rfl rfl
    · cases hs

theorem reach_frames {cfg : Cfg} {d : Data} (hT : StrictMono d.T) {s : Node} (h : Reach cfg d s) : Frames cfg d s := by
  induction h with
  | init => exact frames_init cfg d
  | step e _ hs ih => exact frames_step hT ih hs

/-! ### Nothing left to do -/

/-- Enough threads: with registration factors, four callbacks can wait at the same time (three of them in the back end), one fewer
without stereo factors. -/
def Cfg.Enough (cfg : Cfg) : Prop := (if cfg.split then 3 else 4) + cfg.stereo.toNat ≤ cfg.threads

/-- In a quiet state, an IMU array callback and a pressure callback do not wait at the same time. -/
theorem quiet_baro {cfg : Cfg} {d : Data} {s : Node} (h : Counts cfg s) (hq : Quiet cfg d s) (hb : s.baroRun = true) :
    s.imuRun = false := by
  by_contra hi
  have hi : s.imuRun = true := by simpa using hi
  have h1 := hq .baroFinish rfl
  have h2 := hq .imuFinish rfl
  simp only [step, hb, hi, true_and, ite_eq_right_iff, reduceCtorEq, imp_false] at h1 h2
  have := h.baroTaken
  have := h.baroSent
  have := h.baroRun hb
  have := h.done_bias (by omega)
  have := h.bias_le
  have := h.opt_le
  omega

theorem quiet_free {cfg : Cfg} {d : Data} {s : Node} (h : Counts cfg s) (hfr : Frames cfg d s) (hn : cfg.Enough)
    (hq : Quiet cfg d s) : FreeFront cfg s ∧ FreeBack cfg s := by
  have hb := quiet_baro h hq
  have hst : s.stereoRun.isSome.toNat ≤ cfg.stereo.toNat := by
    cases hs : cfg.stereo
    · rw [(hfr.none hs).2.2]; simp
    · cases s.stereoRun <;> simp
  unfold Cfg.Enough at hn
  unfold FreeFront FreeBack busyFront busyBack
  have hib : s.imuRun.toNat + s.baroRun.toNat ≤ 1 := by
    cases hbr : s.baroRun
    · cases s.imuRun <;> simp
    · rw [hb hbr]; simp
  have hm : s.mapRun.toNat ≤ 1 := Bool.toNat_le _
  cases hsp : cfg.split <;> rw [hsp] at hn <;> simp at hn ⊢ <;> split <;> omega

/-- The running pointcloud callback waits for sensor data. -/
def WaitsForSensors (cfg : Cfg) (d : Data) (s : Node) : Prop :=
  (s.phase = .select ∧ ¬ SelectReady cfg d s) ∨ (s.phase ≠ .idle ∧ s.sensors ≤ s.done)

/-- The frames the graph needs: with `only_graph_frames`, no two consecutive states (after the first) without a stereo frame. -/
def EnoughFrames (cfg : Cfg) (d : Data) : Prop :=
  cfg.stereo = true → cfg.onlyGraph = true → ∀ k, 0 < k → d.hasFrame k = true ∨ d.hasFrame (k + 1) = true

theorem quiet_progress {cfg : Cfg} {d : Data} {s : Node} (hT : StrictMono d.T) (h : Counts cfg s)
    (ho : 0 < s.poses → s.opt = optOf cfg s) (hfr : Frames cfg d s) (hn : cfg.Enough) (he : EnoughFrames cfg d)
    (hq : Quiet cfg d s) : s.phase = .idle ∨ WaitsForSensors cfg d s ∨ (s.phase = .bias ∧ s.awaited < s.bias) := by
  obtain ⟨hff, hfb⟩ := quiet_free h hfr hn hq
  cases hp : s.phase
  case idle => exact .inl rfl
  case select =>
    have h1 := hq .select rfl
    simp only [step, hp, true_and, ite_eq_right_iff, reduceCtorEq, imp_false] at h1
    exact .inr (.inl (.inl ⟨hp, h1⟩))
  case imu =>
    have h1 := hq .send rfl
    simp only [step, hp, true_and, ite_eq_right_iff, reduceCtorEq, imp_false] at h1
    refine .inr (.inl (.inr ⟨by rw [hp]; exact Phase.noConfusion, ?_⟩))
    by_contra hc
    exact h1 fun _ => by omega
  case bias =>
    by_cases hs : s.sensors ≤ s.done
    · exact .inr (.inl (.inr ⟨by rw [hp]; exact Phase.noConfusion, hs⟩))
    by_cases hb : s.awaited < s.bias
    · exact .inr (.inr ⟨rfl, hb⟩)
    exfalso
    have q1 := hq .finish rfl
    have q2 := hq .biases rfl
    have q3 := hq .filtered rfl
    have q4 := hq .initial rfl
    have q5 := hq .imuStart rfl
    have q6 := hq .imuFinish rfl
    have q7 := hq .register rfl
    have q8 := hq .scan rfl
    have q9 := hq .map rfl
    have q10 := hq .mapStart rfl
    have q11 := hq .mapFinish rfl
    have q12 := hq .track rfl
    have q13 := hq .stereoStart rfl
    have q14 := hq .stereoRound rfl
    simp only [step, hp, hff, hfb, and_true, true_and, ite_eq_right_iff, reduceCtorEq, imp_false, not_and, not_lt] at q1 q2 q3 q4 q5 q6 q7 q8 q9 q10 q11
    obtain ⟨h1, h2, h3, h4, h5, h6, h7, h8, h9, h10, h11, h12, h13, h14, h15, h16, h17, h18, h19, h20, h21, h22, h23, h24, h25⟩ := h
    rw [hp] at h1
    simp only [if_true] at h1
    have hposes : 0 < s.poses := by
      by_contra hc
      have := q4 (by omega)
      omega
    have hopt := h5 hposes
    have hbias : s.bias = s.opt := by omega
    have haw : s.opt < s.awaited := by
      have : s.bias ≠ s.awaited := fun hc => by have := q1 hc; omega
      omega
    have hdone : 2 ≤ s.done := by unfold Node.awaited at haw; omega
    have hlt : s.opt < s.done := by unfold Node.awaited at haw; omega
    have hpo : s.poses = s.opt + 1 := by
      by_contra hc
      cases hi : s.imuRun
      · have := q5 hi hposes
        omega
      · exact q6 hi (by omega)
    have hreg : cfg.reg = true → s.regKey = s.opt := by
      intro hr
      have hnorm := q3 hr
      have hscan : s.scans = s.opt + 1 := by
        by_contra hc
        have := q8 (by omega)
        omega
      have hmaps : s.maps = s.opt := by
        by_contra hc
        have := q9 (by omega)
        omega
      have hsent : s.regSent = s.opt := by
        cases hm : cfg.s2m
        · have := h17 hm
          omega
        · have h16' := h16 hm
          cases hr : s.mapRun
          · have := q10 hr
            rw [hr, Bool.toNat_false] at h16'
            omega
          · have := q11 hr
            omega
      omega
    have hster : cfg.stereo = true → s.opt < s.stereoKeys := by
      intro hst
      have himg : s.images = [] := by
        cases hi : s.images
        · rfl
        · rw [step, hi] at q12
          simp [hfb] at q12
      have hrun : ∀ t, s.stereoRun = some t → s.opt < s.stereoKeys := by
        intro t ht
        simp only [step, ht, ite_eq_right_iff, reduceCtorEq, imp_false, not_lt] at q14
        omega
      have hpend : ∀ f, s.Pending f → s.opt < s.stereoKeys := by
        intro f hf
        rcases hf with hf | hf | hf
        · rw [himg] at hf; cases hf
        · cases hr : s.stereoRun
          · cases hi : s.features
            · rw [hi] at hf; cases hf
            · simp only [step, hi, hr, hfb, if_true] at q13
              cases q13
          · exact hrun _ hr
        · exact hrun _ hf
      have hsel : s.selected = s.done + 1 := by simp [Node.selected, hp]
      have : ∃ f ∈ s.frames, d.T s.opt ≤ f := by
        have hs1 := hfr.selected hst s.opt (by omega)
        have hs2 := hfr.selected hst (s.opt + 1) (by omega)
        cases hg : cfg.onlyGraph
        · rw [hg] at hs1
          simpa using hs1
        · rw [hg, if_pos (by rfl)] at hs1 hs2
          rcases he hst hg s.opt hopt with hf | hf
          · exact ⟨_, hs1 hf, le_refl _⟩
          · exact ⟨_, hs2 hf, hT.monotone (Nat.le_succ _)⟩
      obtain ⟨f, hf, hk⟩ := this
      rcases hfr.handled f hf _ hk with hpd | hpd
      · exact hpend f hpd
      · exact hpd
    have ho' := ho hposes
    unfold optOf at ho'
    cases hr : cfg.reg <;> cases hst : cfg.stereo <;> rw [hr, hst] at ho' <;> simp at ho'
    · omega
    · have := hster hst; omega
    · have := hreg hr; omega
    · have := hreg hr
      have := hster hst
      omega

/-- With registration factors the biases of a state arrive after the end of its pointcloud callback. -/
theorem bias_le_awaited {cfg : Cfg} {s : Node} (h : Counts cfg s) (ho : 0 < s.poses → s.opt = optOf cfg s) (hr : cfg.reg = true) :
    s.bias ≤ s.awaited := by
  obtain ⟨h1, h2, h3, h4, h5, h6, h7, h8, h9, h10, h11, h12, h13, h14, h15, h16, h17, h18, h19, h20, h21, h22, h23, h24, h25⟩ := h
  unfold Node.awaited
  by_cases hp : 0 < s.poses
  · have ho' := ho hp
    unfold optOf at ho'
    rw [hr] at ho'
    cases hst : cfg.stereo <;> rw [hst] at ho' <;> simp at ho' <;> omega
  · omega

/-- With registration factors nothing is optimised beyond that either. -/
theorem opt_le_awaited {cfg : Cfg} {s : Node} (h : Counts cfg s) (ho : 0 < s.poses → s.opt = optOf cfg s) (hr : cfg.reg = true) :
    s.opt ≤ s.awaited := by
  obtain ⟨h1, h2, h3, h4, h5, h6, h7, h8, h9, h10, h11, h12, h13, h14, h15, h16, h17, h18, h19, h20, h21, h22, h23, h24, h25⟩ := h
  unfold Node.awaited
  by_cases hp : 0 < s.poses
  · have ho' := ho hp
    unfold optOf at ho'
    rw [hr] at ho'
    cases hst : cfg.stereo <;> rw [hst] at ho' <;> simp at ho' <;> omega
  · omega

/-! ### Internal events come to an end -/

/-- Work done: every internal event increases it. -/
def work (s : Node) : Int :=
  30 * s.done + (match s.phase with | .idle => 0 | .select => 0 | .imu => 10 | .bias => 20) + 2 * s.poses + s.imuRun.toNat + s.bias
    + s.normals + s.scans + s.maps + (2 * s.mapsTaken - s.mapRun.toNat) + s.regKey + (2 * s.baroTaken - s.baroRun.toNat)
    + s.stereoKeys - 3 * s.images.length - 2 * s.features.length - s.stereoRun.isSome.toNat

/-- Pointcloud callbacks started. -/
def Node.started (s : Node) : Nat := s.done + if s.phase = .idle then 0 else 1

theorem work_optimise (c : Prop) [Decidable c] (k : Nat) (s : Node) : work (optimiseIf c k s) = work s := by
  unfold optimiseIf
  split <;> rfl

theorem started_optimise (c : Prop) [Decidable c] (k : Nat) (s : Node) : (optimiseIf c k s).started = s.started := by
  unfold optimiseIf
  split <;> rfl

theorem work_step {cfg : Cfg} {d : Data} {s s' : Node} {e : Ev} (he : e.external = false) (hs : step cfg d s e = some s') :
    work s < work s' ∧ s'.started = s.started := by
  cases e
  case cloud => cases he
  case sensor => cases he
  case frame => cases he
  case pressure => cases he
  case select =>
    simp only [step] at hs
    split at hs
    · rename_i hc
      obtain rfl := Option.some.inj hs
      refine ⟨?_, ?_⟩
      · split
        · simp [work, hc.1, Node.publishFrame]; omega
        · simp [work, hc.1]; omega
      · split <;> simp [Node.started, hc.1, Node.publishFrame]
    · cases hs
  case track =>
    simp only [step] at hs
    split at hs
    · cases hs
    · rename_i f rest hi
      split at hs
      · obtain rfl := Option.some.inj hs
        refine ⟨?_, rfl⟩
        simp [work, hi]; omega
      · cases hs
  case imuFinish =>
    simp only [step] at hs
    split at hs
    · rename_i hc
      obtain rfl := Option.some.inj hs
      rw [work_optimise, started_optimise]
      refine ⟨?_, rfl⟩
      simp [work, hc.1]; omega
    · cases hs
  case register =>
    simp only [step] at hs
    split at hs
    · rename_i hc
      obtain rfl := Option.some.inj hs
      rw [work_optimise, started_optimise]
      refine ⟨?_, rfl⟩
      simp [work]; omega
    · cases hs
  case stereoStart =>
    simp only [step] at hs
    split at hs
    · rename_i f rest hi hr
      split at hs
      · obtain rfl := Option.some.inj hs
        refine ⟨?_, rfl⟩
        simp [work, hi, hr]; omega
      · cases hs
    · cases hs
  case stereoRound =>
    simp only [step] at hs
    split at hs
    · cases hs
    · rename_i t hr
      split at hs
      · obtain rfl := Option.some.inj hs
        unfold stereoRound
        by_cases ht : t < d.T s.stereoKeys
        · rw [if_pos ht]
          refine ⟨?_, rfl⟩
          simp [work, hr]; omega
        · rw [if_neg ht]
          show _ < work (optimiseIf _ _ _) ∧ (optimiseIf _ _ _).started = _
          rw [work_optimise, started_optimise]
          refine ⟨?_, rfl⟩
          by_cases hh : t = d.T s.stereoKeys
          · simp [work, hr, hh]; omega
          · simp [work, hr, hh]; omega
      · cases hs
  all_goals
    simp only [step] at hs
    split at hs
    · rename_i hc
      obtain rfl := Option.some.inj hs
      refine ⟨?_, ?_⟩
      · simp [work, hc]
        try omega
      · simp [Node.started, hc]
    · cases hs

theorem work_le {cfg : Cfg} {s : Node} (h : Counts cfg s) : work s ≤ 50 * s.started := by
  obtain ⟨h1, h2, h3, h4, h5, h6, h7, h8, h9, h10, h11, h12, h13, h14, h15, h16, h17, h18, h19, h20, h21, h22, h23, h24, h25⟩ := h
  have : s.imuRun.toNat ≤ 1 := Bool.toNat_le _
  have hi : s.imuRun.toNat + s.poses ≤ s.sent := by
    cases hi : s.imuRun
    · simpa using h2
    · have := h6 hi
      rw [Bool.toNat_true]; omega
  unfold work Node.started
  cases hp : s.phase <;> simp [hp] at h1 ⊢ <;> omega

/-! ### States in which nothing will ever move again -/

/-- No thread is free, and the callbacks that hold them wait for something that is not there. -/
structure Dead (cfg : Cfg) (s : Node) : Prop where
  phase : s.phase = .bias
  awaited : s.bias ≠ s.awaited
  front : s.bias = s.opt ∨ ¬ FreeFront cfg s
  back : (¬ FreeBack cfg s ∧ (s.imuRun = true → s.opt ≠ s.poses) ∧ (s.stereoRun.isSome → s.poses ≤ s.stereoKeys) ∧
    (s.baroRun = true → s.poses < s.baroTaken) ∧ (s.mapRun = true → s.queue = 0)) ∨ (cfg.split = true ∧ ¬ FreeFront cfg s)

instance (cfg : Cfg) (s : Node) : Decidable (Dead cfg s) :=
  decidable_of_iff (s.phase = .bias ∧ s.bias ≠ s.awaited ∧ (s.bias = s.opt ∨ ¬ FreeFront cfg s) ∧
    ((¬ FreeBack cfg s ∧ (s.imuRun = true → s.opt ≠ s.poses) ∧ (s.stereoRun.isSome → s.poses ≤ s.stereoKeys) ∧
      (s.baroRun = true → s.poses < s.baroTaken) ∧ (s.mapRun = true → s.queue = 0)) ∨ (cfg.split = true ∧ ¬ FreeFront cfg s)))
    ⟨fun ⟨a, b, c, e⟩ => ⟨a, b, c, e⟩, fun ⟨a, b, c, e⟩ => ⟨a, b, c, e⟩⟩

/-- The parts of the system that matter in such a state. -/
structure Same (s s' : Node) : Prop where
  phase : s'.phase = s.phase
  done : s'.done = s.done
  bias : s'.bias = s.bias
  opt : s'.opt = s.opt
  poses : s'.poses = s.poses
  imuRun : s'.imuRun = s.imuRun
  stereoRun : s'.stereoRun = s.stereoRun
  stereoKeys : s'.stereoKeys = s.stereoKeys
  baroRun : s'.baroRun = s.baroRun
  baroTaken : s'.baroTaken = s.baroTaken
  mapRun : s'.mapRun = s.mapRun
  queue : s'.queue = s.queue

theorem Dead.same {cfg : Cfg} {s s' : Node} (h : Dead cfg s) (hs : Same s s') : Dead cfg s' := by
  have hff : FreeFront cfg s' ↔ FreeFront cfg s := by
    unfold FreeFront busyFront busyBack
    rw [hs.phase, hs.imuRun, hs.stereoRun, hs.baroRun, hs.mapRun]
  have hfb : FreeBack cfg s' ↔ FreeBack cfg s := by
    unfold FreeBack busyFront busyBack
    rw [hs.phase, hs.imuRun, hs.stereoRun, hs.baroRun, hs.mapRun]
  refine ⟨by rw [hs.phase]; exact h.phase, ?_, ?_, ?_⟩
  · unfold Node.awaited; rw [hs.bias, hs.done]; exact h.awaited
  · rw [hs.bias, hs.opt, hff]; exact h.front
  · rw [hff, hfb, hs.imuRun, hs.opt, hs.poses, hs.stereoRun, hs.stereoKeys, hs.baroRun, hs.baroTaken, hs.mapRun, hs.queue]
    exact h.back

/-- With a full back end, an event changes none of these parts. -/
theorem Dead.step_same {cfg : Cfg} {d : Data} {s s' : Node} {e : Ev} (h : Dead cfg s)
    (hb : ¬ FreeBack cfg s ∧ (s.imuRun = true → s.opt ≠ s.poses) ∧ (s.stereoRun.isSome → s.poses ≤ s.stereoKeys) ∧
      (s.baroRun = true → s.poses < s.baroTaken) ∧ (s.mapRun = true → s.queue = 0))
    (hs : step cfg d s e = some s') : Same s s' := by
  obtain ⟨hf, hi, hst, hba, hm⟩ := hb
  have hph := h.phase
  have haw := h.awaited
  have hfr := h.front
  cases e
  case sensor =>
    simp only [step] at hs
    split at hs
    · obtain rfl := Option.some.inj hs; constructor <;> rfl
    · cases hs
  case frame t =>
    simp only [step] at hs
    split at hs
    · obtain rfl := Option.some.inj hs; constructor <;> rfl
    · cases hs
  case pressure =>
    simp only [step] at hs
    split at hs
    · obtain rfl := Option.some.inj hs; constructor <;> rfl
    · cases hs
  case filtered =>
    simp only [step] at hs
    split at hs
    · obtain rfl := Option.some.inj hs; constructor <;> rfl
    · cases hs
  case biases =>
    simp only [step] at hs
    split at hs
    · rename_i hc
      rcases hfr with hfr | hfr
      · omega
      · exact absurd hc.2 hfr
    · cases hs
  case stereoRound =>
    simp only [step] at hs
    split at hs
    · cases hs
    · rename_i t ht
      split at hs
      · have := hst (by rw [ht]; rfl)
        omega
      · cases hs
  case baroFinish =>
    simp only [step] at hs
    split at hs
    · rename_i hc
      have := hba hc.1
      omega
    · cases hs
  case mapFinish =>
    simp only [step] at hs
    split at hs
    · rename_i hc
      have := hm hc.1
      omega
    · cases hs
  case imuFinish =>
    simp only [step] at hs
    split at hs
    · rename_i hc
      exact absurd hc.2 (hi hc.1)
    · cases hs
  case track =>
    simp only [step] at hs
    split at hs
    · cases hs
    · rw [if_neg hf] at hs; cases hs
  case stereoStart =>
    simp only [step] at hs
    split at hs
    · rw [if_neg hf] at hs; cases hs
    · cases hs
  all_goals simp [step, hph, hf, haw] at hs

theorem optimise_front (c : Prop) [Decidable c] (k : Nat) (s : Node) :
    (optimiseIf c k s).phase = s.phase ∧ (optimiseIf c k s).done = s.done ∧ (optimiseIf c k s).bias = s.bias := by
  unfold optimiseIf
  split <;> exact ⟨rfl, rfl, rfl⟩

theorem stereoRound_front (cfg : Cfg) (d : Data) (t : Int) (s : Node) :
    (stereoRound cfg d t s).phase = s.phase ∧ (stereoRound cfg d t s).done = s.done ∧ (stereoRound cfg d t s).bias = s.bias := by
  unfold stereoRound
  by_cases ht : t < d.T s.stereoKeys
  · rw [if_pos ht]; exact ⟨rfl, rfl, rfl⟩
  · rw [if_neg ht]; exact optimise_front _ _ _

/-- With the only thread of the front end taken, an event changes neither the pointcloud callback nor the biases. -/
theorem Dead.step_front {cfg : Cfg} {d : Data} {s s' : Node} {e : Ev} (h : Dead cfg s) (hf : ¬ FreeFront cfg s)
    (hs : step cfg d s e = some s') : s'.phase = s.phase ∧ s'.done = s.done ∧ s'.bias = s.bias := by
  have hph := h.phase
  have haw := h.awaited
  cases e
  case track =>
    simp only [step] at hs
    split at hs
    · cases hs
    · split at hs
      · obtain rfl := Option.some.inj hs; exact ⟨rfl, rfl, rfl⟩
      · cases hs
  case stereoStart =>
    simp only [step] at hs
    split at hs
    · split at hs
      · obtain rfl := Option.some.inj hs; exact ⟨rfl, rfl, rfl⟩
      · cases hs
    · cases hs
  case stereoRound =>
    simp only [step] at hs
    split at hs
    · cases hs
    · split at hs
      · obtain rfl := Option.some.inj hs
        exact stereoRound_front cfg d _ s
      · cases hs
  case imuFinish =>
    simp only [step] at hs
    split at hs
    · obtain rfl := Option.some.inj hs
      unfold optimiseIf
      split <;> exact ⟨rfl, rfl, rfl⟩
    · cases hs
  case register =>
    simp only [step] at hs
    split at hs
    · obtain rfl := Option.some.inj hs
      unfold optimiseIf
      split <;> exact ⟨rfl, rfl, rfl⟩
    · cases hs
  case cloud => simp [step, hph] at hs
  case sensor => simp [step, hf] at hs
  case frame => simp [step, hf] at hs
  case select => simp [step, hph] at hs
  case send => simp [step, hph] at hs
  case finish => simp [step, hph, haw] at hs
  case biases => simp [step, hf] at hs
  case filtered => simp [step, hf] at hs
  all_goals
    simp only [step] at hs
    split at hs
    · obtain rfl := Option.some.inj hs; exact ⟨rfl, rfl, rfl⟩
    · cases hs

theorem Dead.later {cfg : Cfg} {d : Data} {s s' : Node} (h : Dead cfg s) (hl : Later cfg d s s') :
    s'.phase = .bias ∧ s'.done = s.done := by
  suffices hk : Dead cfg s' ∧ s'.done = s.done from ⟨hk.1.phase, hk.2⟩
  induction hl with
  | refl => exact ⟨h, rfl⟩
  | step e _ hs ih =>
    obtain ⟨ih, hd⟩ := ih
    rcases ih.back with hb | ⟨hsp, hf⟩
    · have hsame := ih.step_same hb hs
      exact ⟨ih.same hsame, by rw [hsame.done, hd]⟩
    · obtain ⟨h1, h2, h3⟩ := ih.step_front hf hs
      have hff : ∀ s : Node, s.phase = .bias → (FreeFront cfg s ↔ 1 < cfg.threads) := by
        intro s hp
        unfold FreeFront busyFront
        rw [hsp, if_pos (by rfl), hp]
        rfl
      have hph := ih.phase
      refine ⟨⟨by rw [h1]; exact hph, ?_, .inr ?_, .inr ⟨hsp, ?_⟩⟩, by rw [h2, hd]⟩
      · unfold Node.awaited; rw [h3, h2]; exact ih.awaited
      · rw [hff _ (by rw [h1]; exact hph)]; rwa [hff _ hph] at hf
      · rw [hff _ (by rw [h1]; exact hph)]; rwa [hff _ hph] at hf

theorem reach_run {cfg : Cfg} {d : Data} {es : List Ev} {s s' : Node} (h : Reach cfg d s) (hr : run cfg d es s = some s') :
    Reach cfg d s' := by
  induction es generalizing s with
  | nil => obtain rfl := Option.some.inj hr; exact h
  | cons e es ih =>
    simp only [run] at hr
    split at hr
    · cases hr
    · rename_i s1 hs1
      exact ih (.step e h hs1) hr

/-- The biases have overtaken the pointcloud callback. -/
theorem overtaken_later {cfg : Cfg} {d : Data} {s s' : Node} (hp : s.phase = .bias) (h : s.awaited < s.bias)
    (hl : Later cfg d s s') : s'.phase = .bias ∧ s'.done = s.done ∧ s'.awaited < s'.bias := by
  induction hl with
  | refl => exact ⟨hp, rfl, h⟩
  | step e _ hs ih =>
    rename_i s1 s2 _
    obtain ⟨i1, i2, i3⟩ := ih
    suffices hk : s2.phase = s1.phase ∧ s2.done = s1.done ∧ s1.bias ≤ s2.bias by
      refine ⟨by rw [hk.1]; exact i1, by rw [hk.2.1]; exact i2, ?_⟩
      unfold Node.awaited at i3 ⊢
      have := hk.2.1
      omega
    have haw : s1.bias ≠ s1.awaited := by omega
    cases e
    case cloud => simp [step, i1] at hs
    case select => simp [step, i1] at hs
    case send => simp [step, i1] at hs
    case finish => simp [step, i1, haw] at hs
    case track =>
      simp only [step] at hs
      split at hs
      · cases hs
      · split at hs
        · obtain rfl := Option.some.inj hs; exact ⟨rfl, rfl, le_refl _⟩
        · cases hs
    case stereoStart =>
      simp only [step] at hs
      split at hs
      · split at hs
        · obtain rfl := Option.some.inj hs; exact ⟨rfl, rfl, le_refl _⟩
        · cases hs
      · cases hs
    case stereoRound =>
      simp only [step] at hs
      split at hs
      · cases hs
      · split at hs
        · obtain rfl := Option.some.inj hs
          obtain ⟨j1, j2, j3⟩ := stereoRound_front cfg d _ s1
          exact ⟨j1, j2, le_of_eq j3.symm⟩
        · cases hs
    case imuFinish =>
      simp only [step] at hs
      split at hs
      · obtain rfl := Option.some.inj hs
        unfold optimiseIf
        split <;> exact ⟨rfl, rfl, le_refl _⟩
      · cases hs
    case register =>
      simp only [step] at hs
      split at hs
      · obtain rfl := Option.some.inj hs
        unfold optimiseIf
        split <;> exact ⟨rfl, rfl, le_refl _⟩
      · cases hs
    case biases =>
      simp only [step] at hs
      split at hs
      · obtain rfl := Option.some.inj hs; exact ⟨rfl, rfl, Nat.le_succ _⟩
      · cases hs
    all_goals
      simp only [step] at hs
      split at hs
      · obtain rfl := Option.some.inj hs; exact ⟨rfl, rfl, le_refl _⟩
      · cases hs

/-- More threads never hinder. -/
theorem step_threads {cfg : Cfg} {d : Data} {s s' : Node} {e : Ev} {n : Nat} (hn : cfg.threads ≤ n)
    (hs : step cfg d s e = some s') : step { cfg with threads := n } d s e = some s' := by
  have hff : FreeFront cfg s → FreeFront { cfg with threads := n } s := fun h => lt_of_lt_of_le h hn
  have hfb : FreeBack cfg s → FreeBack { cfg with threads := n } s := fun h => lt_of_lt_of_le h hn
  cases e
  case track =>
    simp only [step] at hs ⊢
    split at hs
    · cases hs
    · split at hs
      · rename_i hc
        rw [if_pos (hfb hc)]; exact hs
      · cases hs
  case stereoStart =>
    simp only [step] at hs ⊢
    split at hs
    · split at hs
      · rename_i hc
        rw [if_pos (hfb hc)]; exact hs
      · cases hs
    · cases hs
  case stereoRound =>
    simp only [step] at hs ⊢
    exact hs
  all_goals
    simp only [step] at hs ⊢
    split at hs
    · rename_i hc
      rw [if_pos (by first | exact hc | tauto)]
      exact hs
    · cases hs

theorem run_threads {cfg : Cfg} {d : Data} {es : List Ev} {s s' : Node} {n : Nat} (hn : cfg.threads ≤ n)
    (hs : run cfg d es s = some s') : run { cfg with threads := n } d es s = some s' := by
  induction es generalizing s with
  | nil => exact hs
  | cons e es ih =>
    simp only [run] at hs ⊢
    split at hs
    · cases hs
    · rename_i s1 hs1
      rw [step_threads hn hs1]
      exact ih hs

/-! ### Too few stereo frames, no factors -/

/-- Nothing beyond the states before `k` arrives at the stereo callback. -/
structure Sparse (d : Data) (k : Nat) (s : Node) : Prop where
  images : ∀ f ∈ s.images, f < d.T k
  features : ∀ f ∈ s.features, f < d.T k
  running : ∀ f, s.stereoRun = some f → f < d.T k
  keys : s.stereoKeys ≤ k
  done : s.done ≤ k + 1

theorem sparse_optimise {d : Data} {k : Nat} {s : Node} (c : Prop) [Decidable c] (n : Nat) (h : Sparse d k s) :
    Sparse d k (optimiseIf c n s) := by
  unfold optimiseIf
  split
  · exact { h with }
  · exact h

theorem sparse_round {cfg : Cfg} {d : Data} {k : Nat} {s : Node} {t : Int} (h : Sparse d k s) (hT : StrictMono d.T)
    (ht : s.stereoRun = some t) : Sparse d k (stereoRound cfg d t s) := by
  have hlt := h.running t ht
  unfold stereoRound
  by_cases hc : t < d.T s.stereoKeys
  · rw [if_pos hc]
    exact { h with running := fun f hf => by cases hf }
  · rw [if_neg hc]
    refine sparse_optimise _ _ ?_
    refine { h with running := fun f hf => ?_, keys := ?_ }
    · by_cases he : t = d.T s.stereoKeys
      · simp [he] at hf
      · simp only [he, if_false, Option.some.injEq] at hf
        rw [← hf]; exact hlt
    · have : s.stereoKeys < k := by
        have := h.keys
        rcases Nat.lt_or_ge s.stereoKeys k with hl | hl
        · exact hl
        · have := hT.monotone hl
          omega
      exact this

theorem sparse_step {cfg : Cfg} {d : Data} {k : Nat} {s s' : Node} {e : Ev} (hT : StrictMono d.T) (hog : cfg.onlyGraph = true)
    (hk : 0 < k) (h1 : d.hasFrame k = false) (h2 : d.hasFrame (k + 1) = false) (h : Sparse d k s)
    (hb : s.bias ≤ max s.stereoKeys 1) (hs : step cfg d s e = some s') : Sparse d k s' := by
  have hkeys := h.keys
  have hdone := h.done
  cases e
  case frame t => simp [step, hog] at hs
  case select =>
    simp only [step] at hs
    split at hs
    · obtain rfl := Option.some.inj hs
      by_cases hq : cfg.stereo = true ∧ cfg.onlyGraph = true ∧ d.hasFrame s.done = true
      · rw [if_pos hq]
        have hlt : d.T s.done < d.T k := hT (by
          rcases Nat.lt_or_ge s.done k with hl | hl
          · exact hl
          · rcases Nat.eq_or_lt_of_le hl with he | he
            · rw [← he, h1] at hq; exact absurd hq.2.2 (by simp)
            · obtain he : s.done = k + 1 := by omega
              rw [he, h2] at hq; exact absurd hq.2.2 (by simp))
        exact { h with
          images := fun f hf => by
            rcases List.mem_append.1 hf with hf | hf
            · exact h.images f hf
            · rw [List.mem_singleton.1 hf]; exact hlt }
      · rw [if_neg hq]
        exact { h with }
    · cases hs
  case finish =>
    simp only [step] at hs
    split at hs
    · rename_i hc
      obtain rfl := Option.some.inj hs
      obtain ⟨-, hc, -⟩ := hc
      unfold Node.awaited at hc
      exact { h with done := by show s.done + 1 ≤ k + 1; omega }
    · cases hs
  case track =>
    simp only [step] at hs
    split at hs
    · cases hs
    · rename_i f rest hi
      split at hs
      · obtain rfl := Option.some.inj hs
        exact { h with
          images := fun g hg => h.images g (by rw [hi]; exact List.mem_cons_of_mem _ hg)
          features := fun g hg => by
            rcases List.mem_append.1 hg with hg | hg
            · exact h.features g hg
            · rw [List.mem_singleton.1 hg]; exact h.images f (by rw [hi]; exact List.mem_cons_self) }
      · cases hs
  case stereoStart =>
    simp only [step] at hs
    split at hs
    · rename_i f rest hi hr
      split at hs
      · obtain rfl := Option.some.inj hs
        exact { h with
          features := fun g hg => h.features g (by rw [hi]; exact List.mem_cons_of_mem _ hg)
          running := fun g hg => by
            obtain rfl := Option.some.inj hg
            exact h.features _ (by rw [hi]; exact List.mem_cons_self) }
      · cases hs
    · cases hs
  case stereoRound =>
    simp only [step] at hs
    split at hs
    · cases hs
    · rename_i t ht
      split at hs
      · obtain rfl := Option.some.inj hs
        exact sparse_round h hT ht
      · cases hs
  case imuFinish =>
    simp only [step] at hs
    split at hs
    · obtain rfl := Option.some.inj hs
      exact sparse_optimise _ _ { h with }
    · cases hs
  case register =>
    simp only [step] at hs
    split at hs
    · obtain rfl := Option.some.inj hs
      exact sparse_optimise _ _ { h with }
    · cases hs
  all_goals
    simp only [step] at hs
    split at hs
    · obtain rfl := Option.some.inj hs
      exact { h with }
    · cases hs

theorem sparse_reach {cfg : Cfg} {d : Data} {k : Nat} {s : Node} (hT : StrictMono d.T) (hst : cfg.stereo = true)
    (hog : cfg.onlyGraph = true) (hk : 0 < k) (h1 : d.hasFrame k = false) (h2 : d.hasFrame (k + 1) = false) (h : Reach cfg d s) :
    Sparse d k s := by
  induction h with
  | init => exact ⟨fun f hf => (List.not_mem_nil hf).elim, fun f hf => (List.not_mem_nil hf).elim, fun f hf => (by cases hf),
      Nat.zero_le _, Nat.zero_le _⟩
  | step e hr hs ih =>
    rename_i s1 s2
    refine sparse_step hT hog hk h1 h2 ih ?_ hs
    obtain ⟨hc, ho⟩ := reach_counts (.inr (.inr hst)) hr
    have hb := hc.bias_le
    rcases Nat.eq_zero_or_pos s1.poses with hp | hp
    · have := hc.opt_le; omega
    · have ho := ho hp
      have : optOf cfg s1 ≤ max s1.stereoKeys 1 := by
        unfold optOf
        rw [hst, if_pos rfl]
        exact min_le_right _ _
      omega

/-- Without factors, only the first state is optimised. -/
structure Idle (s : Node) : Prop where
  images : s.images = []
  features : s.features = []
  running : s.stereoRun = none
  normals : s.normals = 0
  scans : s.scans = 0
  queue : s.queue = 0
  regSent : s.regSent = 0
  opt : s.opt ≤ 1
  bias : s.bias ≤ 1
  done : s.done ≤ 2

theorem idle_step {cfg : Cfg} {d : Data} {s s' : Node} {e : Ev} (hf : ¬ cfg.Optimises) (h : Idle s)
    (hs : step cfg d s e = some s') : Idle s' := by
  have hi : cfg.imu = false := by by_contra hc; exact hf (.inl (by simpa using hc))
  have hr : cfg.reg = false := by by_contra hc; exact hf (.inr (.inl (by simpa using hc)))
  have hst : cfg.stereo = false := by by_contra hc; exact hf (.inr (.inr (by simpa using hc)))
  have ho := h.opt
  have hb := h.bias
  have hd := h.done
  cases e
  case frame t => simp [step, hst] at hs
  case filtered => simp [step, hr] at hs
  case scan => simp [step, h.scans, h.normals] at hs
  case register => simp [step, h.regSent] at hs
  case track => simp [step, h.images] at hs
  case stereoStart => simp [step, h.features] at hs
  case stereoRound => simp [step, h.running] at hs
  case mapFinish => simp [step, h.queue] at hs
  case select =>
    simp only [step, hst] at hs
    split at hs
    · obtain rfl := Option.some.inj hs
      rw [if_neg (by simp)]
      exact { h with }
    · cases hs
  case finish =>
    simp only [step] at hs
    split at hs
    · rename_i hc
      obtain rfl := Option.some.inj hs
      obtain ⟨-, hc, -⟩ := hc
      unfold Node.awaited at hc
      exact { h with done := by show s.done + 1 ≤ 2; omega }
    · cases hs
  case biases =>
    simp only [step] at hs
    split at hs
    · rename_i hc
      obtain rfl := Option.some.inj hs
      exact { h with bias := by show s.bias + 1 ≤ 1; omega }
    · cases hs
  case initial =>
    simp only [step] at hs
    split at hs
    · obtain rfl := Option.some.inj hs
      exact { h with opt := Nat.le_refl 1 }
    · cases hs
  case imuFinish =>
    simp only [step, hi] at hs
    split at hs
    · obtain rfl := Option.some.inj hs
      unfold optimiseIf
      rw [if_neg (by simp)]
      exact { h with }
    · cases hs
  all_goals
    simp only [step] at hs
    split at hs
    · obtain rfl := Option.some.inj hs
      exact { h with }
    · cases hs

theorem idle_reach {cfg : Cfg} {d : Data} {s : Node} (hf : ¬ cfg.Optimises) (h : Reach cfg d s) : Idle s := by
  induction h with
  | init => constructor <;> simp
  | step e _ hs ih => exact idle_step hf ih hs

theorem reach_later {cfg : Cfg} {d : Data} {s s' : Node} (h : Reach cfg d s) (hl : Later cfg d s s') : Reach cfg d s' := by
  induction hl with
  | refl => exact h
  | step e _ hs ih => exact .step e ih hs

/-- Only the end of the pointcloud callback and the arrival of biases change what it waits for. -/
theorem done_step {cfg : Cfg} {d : Data} {s s' : Node} {e : Ev} (hs : step cfg d s e = some s') :
    s.done ≤ s'.done ∧ (s.phase = .bias → s'.done = s.done → e ≠ .biases → s'.phase = .bias ∧ s'.bias = s.bias) := by
  cases e
  case track =>
    simp only [step] at hs
    split at hs
    · cases hs
    · split at hs
      · obtain rfl := Option.some.inj hs; exact ⟨Nat.le_refl _, fun h _ _ => ⟨h, rfl⟩⟩
      · cases hs
  case stereoStart =>
    simp only [step] at hs
    split at hs
    · split at hs
      · obtain rfl := Option.some.inj hs; exact ⟨Nat.le_refl _, fun h _ _ => ⟨h, rfl⟩⟩
      · cases hs
    · cases hs
  case stereoRound =>
    simp only [step] at hs
    split at hs
    · cases hs
    · rename_i t _
      split at hs
      · obtain rfl := Option.some.inj hs
        obtain ⟨h1, h2, h3⟩ := stereoRound_front cfg d t s
        exact ⟨h2.ge, fun h _ _ => ⟨h1.trans h, h3⟩⟩
      · cases hs
  case imuFinish =>
    simp only [step] at hs
    split at hs
    · obtain rfl := Option.some.inj hs
      unfold optimiseIf
      split <;> exact ⟨Nat.le_refl _, fun h _ _ => ⟨h, rfl⟩⟩
    · cases hs
  case register =>
    simp only [step] at hs
    split at hs
    · obtain rfl := Option.some.inj hs
      unfold optimiseIf
      split <;> exact ⟨Nat.le_refl _, fun h _ _ => ⟨h, rfl⟩⟩
    · cases hs
  case finish =>
    simp only [step] at hs
    split at hs
    · obtain rfl := Option.some.inj hs
      exact ⟨Nat.le_succ _, fun _ h _ => absurd h (Nat.succ_ne_self _)⟩
    · cases hs
  case biases =>
    simp only [step] at hs
    split at hs
    · obtain rfl := Option.some.inj hs
      exact ⟨Nat.le_refl _, fun _ _ h => absurd rfl h⟩
    · cases hs
  case select =>
    simp only [step] at hs
    split at hs
    · rename_i hc
      obtain rfl := Option.some.inj hs
      refine ⟨?_, fun h => by rw [hc.1] at h; cases h⟩
      by_cases hq : cfg.stereo = true ∧ cfg.onlyGraph = true ∧ d.hasFrame s.done = true
      · rw [if_pos hq]; exact Nat.le_refl _
      · rw [if_neg hq]
    · cases hs
  all_goals
    simp only [step] at hs
    split at hs
    · rename_i hc
      obtain rfl := Option.some.inj hs
      exact ⟨Nat.le_refl _, fun h _ _ => ⟨by first | exact h | (rw [hc.1] at h; cases h) | rfl, rfl⟩⟩
    · cases hs

/-- An event takes at most one thread, and only a free one. -/
theorem threads_taken {cfg : Cfg} {d : Data} {s s' : Node} {e : Ev} (hs : step cfg d s e = some s') :
    (busyFront s' ≤ busyFront s ∧ busyBack s' ≤ busyBack s) ∨
    (FreeFront cfg s ∧ busyFront s' = busyFront s + 1 ∧ busyBack s' = busyBack s) ∨
    (FreeBack cfg s ∧ busyFront s' = busyFront s ∧ busyBack s' = busyBack s + 1) := by
  have hopt : ∀ (c : Prop) [Decidable c] (k : Nat) (s : Node), busyFront (optimiseIf c k s) = busyFront s ∧
      busyBack (optimiseIf c k s) = busyBack s := by
    intro c _ k s
    unfold optimiseIf
    split <;> exact ⟨rfl, rfl⟩
  cases e <;> unfold step at hs <;> dsimp only at hs
  case cloud =>
    split at hs
    · rename_i hc
      cases hs
      exact .inr (.inl ⟨hc.2, by unfold busyFront; rw [if_pos hc.1]; rfl, rfl⟩)
    · cases hs
  case select =>
    split at hs
    · rename_i hc
      cases hs
      left
      have : busyFront s = 1 := by unfold busyFront; rw [hc.1]; rfl
      rw [this]
      split <;> exact ⟨le_refl 1, le_refl _⟩
    · cases hs
  case send =>
    split at hs
    · rename_i hc
      cases hs
      left
      have : busyFront s = 1 := by unfold busyFront; rw [hc.1]; rfl
      rw [this]
      exact ⟨le_refl 1, le_refl _⟩
    · cases hs
  case finish =>
    split at hs
    · cases hs
      exact .inl ⟨Nat.zero_le _, le_refl _⟩
    · cases hs
  case imuFinish =>
    split at hs
    · rename_i hc
      cases hs
      left
      rw [(hopt _ _ _).1, (hopt _ _ _).2]
      refine ⟨le_refl _, ?_⟩
      unfold busyBack
      simp
    · cases hs
  case register =>
    split at hs
    · cases hs
      left
      rw [(hopt _ _ _).1, (hopt _ _ _).2]
      exact ⟨le_refl _, le_refl _⟩
    · cases hs
  case track =>
    split at hs
    · cases hs
    · split at hs
      · cases hs; exact .inl ⟨le_refl _, le_refl _⟩
      · cases hs
  case stereoStart =>
    split at hs
    · rename_i hr
      split at hs
      · rename_i hc
        cases hs
        refine .inr (.inr ⟨hc, rfl, ?_⟩)
        unfold busyBack
        rw [hr]
        simp
        omega
      · cases hs
    · cases hs
  case stereoRound =>
    split at hs
    · cases hs
    · rename_i t hr
      split at hs
      · cases hs
        left
        unfold stereoRound
        dsimp only
        split
        · refine ⟨le_refl _, ?_⟩
          unfold busyBack
          simp
        · rw [(hopt _ _ _).1, (hopt _ _ _).2]
          refine ⟨le_refl _, ?_⟩
          unfold busyBack
          rw [hr]
          dsimp only
          split <;> simp
      · cases hs
  case imuStart =>
    split at hs
    · rename_i hc
      cases hs
      refine .inr (.inr ⟨hc.2.2.2, rfl, ?_⟩)
      unfold busyBack
      rw [hc.1]
      simp
      omega
    · cases hs
  case baroStart =>
    split at hs
    · rename_i hc
      cases hs
      refine .inr (.inr ⟨hc.2.2, rfl, ?_⟩)
      unfold busyBack
      rw [hc.1]
      simp
    · cases hs
  case mapStart =>
    split at hs
    · rename_i hc
      cases hs
      refine .inr (.inr ⟨hc.2.2, rfl, ?_⟩)
      unfold busyBack
      rw [hc.1]
      simp
      omega
    · cases hs
  case baroFinish =>
    split at hs
    · cases hs
      refine .inl ⟨le_refl _, ?_⟩
      unfold busyBack
      simp
    · cases hs
  case mapFinish =>
    split at hs
    · cases hs
      refine .inl ⟨le_refl _, ?_⟩
      unfold busyBack
      simp
    · cases hs
  all_goals
    split at hs
    · cases hs; exact .inl ⟨le_refl _, le_refl _⟩
    · cases hs

/-- The occupied threads of a node are never more than it has. -/
theorem threads_step {cfg : Cfg} {d : Data} {s s' : Node} {e : Ev} (hs : step cfg d s e = some s')
    (h : if cfg.split = true then busyFront s ≤ cfg.threads ∧ busyBack s ≤ cfg.threads
      else busyFront s + busyBack s ≤ cfg.threads) :
    if cfg.split = true then busyFront s' ≤ cfg.threads ∧ busyBack s' ≤ cfg.threads
      else busyFront s' + busyBack s' ≤ cfg.threads := by
  have ht := threads_taken hs
  unfold FreeFront FreeBack at ht
  by_cases hsp : cfg.split = true
  · simp only [hsp, if_true] at h ht ⊢
    omega
  · simp only [hsp] at h ht ⊢
    simp only [Bool.false_eq_true, if_false] at h ht ⊢
    omega

theorem threads_reach {cfg : Cfg} {d : Data} {s : Node} (h : Reach cfg d s) :
    if cfg.split = true then busyFront s ≤ cfg.threads ∧ busyBack s ≤ cfg.threads
      else busyFront s + busyBack s ≤ cfg.threads := by
  induction h with
  | init => simp [busyFront, busyBack]
  | step e _ hs ih => exact threads_step hs ih

end Schedule

end Serpent
