import Verif.Props.ParametersEffect
import Verif.Spec.Parameters

/-!
# The number of iterations of the registration when it is left out (C127)
-/

namespace Serpent

namespace Params

variable {cv : OpenCv} {frames : String → Bool} {p : Server} {s : Single} {f : LidarFront} {b : LidarBack}

/-- The number of iterations that a registration object is given. -/
def Method.iterations : Method → Int
  | .icp q _ => q.maximumIterations
  | .gicp q _ _ _ _ => q.maximumIterations
  | .fastGicp g => g.base.maximumIterations
  | .fastGicpSt g => g.base.maximumIterations
  | .fastVgicp g _ _ _ => g.base.maximumIterations
  | .ndt q _ _ _ => q.maximumIterations

/-- The normal distributions transform was chosen. -/
def Method.IsNdt : Method → Prop
  | .ndt _ _ _ _ => True
  | _ => False

/-- C127. If the number of iterations is left out, a registration method makes at most 10 iterations, and the normal distributions
transform at most 35; whatever else is set. -/
theorem C127_iterations_left_out (h : single cv frames p = .ok s) (hl : s.lidar = some (f, b)) {pre : String} {m : Method}
    (hm : MethodOf b pre m) (h0 : p (pre ++ "base/maximum_iterations") = none) :
    (m.IsNdt → m.iterations = 35) ∧ (¬ m.IsNdt → m.iterations = 10) := by
  have hp := methodOf_params h hl hm
  have hd : ∀ d, p.int (pre ++ "base/maximum_iterations") d = d := by
    intro d; simp only [Server.int, h0]
  have hg : ∀ g, fastGicpParams p pre = .ok g → g.base.maximumIterations = 10 := by
    intro g hg
    unfold fastGicpParams at hg
    obtain ⟨r, -, hg⟩ := bind_eq_ok hg
    rw [← Outcome.ok.inj hg]
    exact hd 10
  unfold methodParams at hp
  obtain ⟨k, -, hp⟩ := bind_eq_ok hp
  cases k with
  | icp => rw [← Outcome.ok.inj hp]; exact ⟨fun h => h.elim, fun _ => hd 10⟩
  | gicp => rw [← Outcome.ok.inj hp]; exact ⟨fun h => h.elim, fun _ => hd 10⟩
  | fastGicp =>
    obtain ⟨g, h1, hp⟩ := bind_eq_ok hp
    rw [← Outcome.ok.inj hp]; exact ⟨fun h => h.elim, fun _ => hg g h1⟩
  | fastGicpSt =>
    obtain ⟨g, h1, hp⟩ := bind_eq_ok hp
    rw [← Outcome.ok.inj hp]; exact ⟨fun h => h.elim, fun _ => hg g h1⟩
  | fastVgicp =>
    dsimp only at hp
    unfold fastVgicpParams at hp
    obtain ⟨g, h1, hp⟩ := bind_eq_ok hp
    obtain ⟨a, -, hp⟩ := bind_eq_ok hp
    obtain ⟨n, -, hp⟩ := bind_eq_ok hp
    rw [← Outcome.ok.inj hp]; exact ⟨fun h => h.elim, fun _ => hg g h1⟩
  | ndt => rw [← Outcome.ok.inj hp]; exact ⟨fun _ => hd 35, fun h => absurd trivial h⟩

/-- Only the scan-to-scan method is set. -/
def onlyNdt : Server := fun k => if k = "s2s/method" then some (.string "ndt") else none

/-- The iterations of both methods of a node. -/
def iterationsOf (p : Server) : Option (Int × Option Int) :=
  match single ⟨4, 4⟩ shippedFrames p with
  | .ok s => s.lidar.map fun l => (l.2.registration.s2s.iterations, l.2.registration.s2m.map Method.iterations)
  | _ => none

example : iterationsOf onlyNdt = some (35, some 10) := by decide +kernel

end Params

end Serpent
