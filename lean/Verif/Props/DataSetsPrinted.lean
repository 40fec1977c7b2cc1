import Verif.Props.DataSets
import Verif.Props.StereoTrackerWitness

/-!
# The stereo node of the data sets prints statistics (C94)
-/

namespace Serpent

namespace Params

open Stereo

/-- The options that the callback of the stereo node uses, from the parameters that the node has read. -/
def StereoTracking.node (t : StereoTracking) : FinderConfig ℚ where
  distanceEnabled := t.distanceFilter.isSome
  maxDistance := (t.distanceFilter.map Prod.fst).getD floatMax
  minDistance := (t.distanceFilter.map Prod.snd).getD 0
  publishStats := t.publishStats
  publishPoints := t.publishPoints
  printStats := t.printStats

theorem stereo_prints {cv : OpenCv} {p : Server} {t : StereoTracking} (h : stereo cv p = .ok t) :
    t.printStats = p.bool "debug/stereo/print_stats" false := by
  unfold stereo at h
  obtain ⟨_, -, h⟩ := bind_eq_ok h
  obtain ⟨_, -, h⟩ := bind_eq_ok h
  obtain ⟨_, -, h⟩ := bind_eq_ok h
  injection h with h
  rw [← h]

theorem missions_print : ∀ d ∈ dataSets, ∀ m ∈ d.missions, (d.base m.2).bool "debug/stereo/print_stats" false = true := by
  have h : (dataSets.all fun d => d.missions.all fun m => (d.base m.2).bool "debug/stereo/print_stats" false) = true := by
    decide +kernel
  intro d hd m hm
  exact List.all_eq_true.1 (List.all_eq_true.1 h d hd) m hm

/-- **C94** fails for all missions of all data sets: their stereo node prints the statistics, so that the first callback either
throws an exception or reads counts that have no value, whatever the images are. -/
theorem C94_fails_data_sets (d : DataSet) (hd : d ∈ dataSets) (m : String × List (String × Value)) (hm : m ∈ d.missions)
    (cv : OpenCv) (n : Int) (t : StereoTracking) (k : Nat) (h : stereoProcess cv (d.server m.2 n) = .ok (t, k))
    {I : Type} (v : Vision I ℚ) (hv : v.Sound) (cfg : TrackerConfig ℚ) (df : Option (DistanceFilter ℚ)) (f : StereoInput I)
    (p : Published)
    (hf : (runFinder v cfg { t.node with printStats := false, publishStats := false } [f] (Finder.init df)).1 = [.ok p]) :
    (runFinder v cfg t.node [f] (Finder.init df)).1 = [.ub] := by
  refine C94_fails_printed v hv cfg t.node (Or.inl ?_) df f p hf
  unfold stereoProcess at h
  obtain ⟨t', ht, h⟩ := bind_eq_ok h
  obtain ⟨_, -, h⟩ := bind_eq_ok h
  injection h with h
  have e : t' = t := congrArg Prod.fst h
  show t.printStats = true
  rw [← e, stereo_prints ht]
  show Server.bool (Server.set (d.base m.2) "threads" (.int n)) "debug/stereo/print_stats" false = true
  rw [bool_set_other (by decide)]
  exact missions_print d hd m hm

/-- The first callback of a mission succeeds without statistics. -/
example : ∃ t k, stereoProcess ⟨4, 4⟩ (snowboard.server (snowboard.missions.headD ("", [])).2 4) = .ok (t, k) ∧
    (runFinder (moving false) movingConfig { t.node with printStats := false, publishStats := false } (inputsOf true [0]) (Finder.init none)).1.map
      (fun o => o >>= fun p => .ok p.features.length) = [.ok 1] := by
  have h : (match stereoProcess ⟨4, 4⟩ (snowboard.server (snowboard.missions.headD ("", [])).2 4) with
    | .ok (t, _) => decide ((runFinder (moving false) movingConfig { t.node with printStats := false, publishStats := false } (inputsOf true [0])
        (Finder.init none)).1.map (fun o => o >>= fun p => .ok p.features.length) = [.ok 1])
    | _ => false) = true := by decide +kernel
  split at h
  · rename_i t k ht
    exact ⟨t, k, ht, of_decide_eq_true h⟩
  · cases h

end Params

end Serpent
