import Verif.Model.LidarOptions
import Mathlib.Tactic.Common

/-!
# Names of the options (C69)
-/

namespace Serpent

namespace Lidar

/-- Parsing and printing are inverse: the printed name is accepted and gives the value, different values have different names, and
every text that is accepted is the name of a value (so that any other text throws). -/
structure Names {α : Type} (name : α → String) (parse : String → Outcome α) : Prop where
  printed : ∀ a, parse (name a) = .ok a
  accepted : ∀ s a, parse s = .ok a → s = name a
  unknown : ∀ s, (∀ a, s ≠ name a) → parse s = .throws

/-- C69. Names of the covariance estimation methods. -/
theorem C69_covariance_method : Names CovMethod.name toCovMethod := by
  have acc : ∀ s a, toCovMethod s = .ok a → s = CovMethod.name a := by
    intro s a h
    unfold toCovMethod at h
    repeat (split at h; · cases h; assumption)
    cases h
  refine ⟨fun a => by cases a <;> decide, acc, fun s h => ?_⟩
  cases e : toCovMethod s with
  | ok a => exact absurd (acc s a e) (h a)
  | throws => rfl
  | ub =>
    exfalso
    revert e
    unfold toCovMethod
    repeat' split
    all_goals exact fun e => by cases e

/-- C69. Names of the models. -/
theorem C69_covariance_model : Names CovModel.name toCovModel := by
  have acc : ∀ s a, toCovModel s = .ok a → s = CovModel.name a := by
    intro s a h
    unfold toCovModel at h
    repeat (split at h; · cases h; assumption)
    cases h
  refine ⟨fun a => by cases a <;> decide, acc, fun s h => ?_⟩
  cases e : toCovModel s with
  | ok a => exact absurd (acc s a e) (h a)
  | throws => rfl
  | ub =>
    exfalso
    revert e
    unfold toCovModel
    repeat' split
    all_goals exact fun e => by cases e

/-- C69. Names of the point covariance methods. -/
theorem C69_point_method : Names PointMethod.name toPointMethod := by
  have acc : ∀ s a, toPointMethod s = .ok a → s = PointMethod.name a := by
    intro s a h
    unfold toPointMethod at h
    repeat (split at h; · cases h; assumption)
    cases h
  refine ⟨fun a => by cases a <;> decide, acc, fun s h => ?_⟩
  cases e : toPointMethod s with
  | ok a => exact absurd (acc s a e) (h a)
  | throws => rfl
  | ub =>
    exfalso
    revert e
    unfold toPointMethod
    repeat' split
    all_goals exact fun e => by cases e

/-- C69. Unit vectors are required exactly when the covariance is computed from the points (not constant) and the covariance of a
point depends on its direction (range noise, with or without bias); unknown names are refused. -/
theorem C69_unit_vectors (cov : CovMethod) (point : PointMethod) :
    requiresUnitVectorsNamed cov.name point.name =
      .ok (decide (cov ≠ .constant) && decide (point = .range ∨ point = .rangeBias)) := by
  cases cov <;> cases point <;> decide

/-- C69. Whether directions are needed is not answered for an unknown name of either method. -/
theorem C69_unit_vectors_unknown (s t : String) (h : (∀ c : CovMethod, s ≠ c.name) ∨ ∀ p : PointMethod, t ≠ p.name) :
    requiresUnitVectorsNamed s t = .throws := by
  unfold requiresUnitVectorsNamed
  rcases h with h | h
  · rw [C69_covariance_method.unknown s h, Outcome.bind_throws]
  · cases e : toCovMethod s with
    | throws => rw [Outcome.bind_throws]
    | ok c => rw [Outcome.bind_ok, C69_point_method.unknown t h, Outcome.bind_throws]
    | ub =>
      by_cases h' : ∃ c : CovMethod, s = c.name
      · obtain ⟨c, rfl⟩ := h'
        rw [C69_covariance_method.printed] at e
        cases e
      · rw [C69_covariance_method.unknown s (fun c hc => h' ⟨c, hc⟩)] at e
        cases e

/-- C69. The type of the sensor is chosen by name, every choice can be made, and other names are refused. -/
theorem C69_sensor_type (s : String) :
    (s = "OUSTER" ∧ toSensorType s = .ok .ouster) ∨ (s = "CUSTOM" ∧ toSensorType s = .ok .custom) ∨
      (s ≠ "OUSTER" ∧ s ≠ "CUSTOM" ∧ toSensorType s = .throws) := by
  unfold toSensorType
  by_cases h1 : s = "OUSTER"
  · exact .inl ⟨h1, by rw [if_pos h1]⟩
  · by_cases h2 : s = "CUSTOM"
    · exact .inr (.inl ⟨h2, by rw [if_neg h1, if_pos h2]⟩)
    · exact .inr (.inr ⟨h1, h2, by rw [if_neg h1, if_neg h2]⟩)

/-- C69. The registration method is chosen by name: every method can be chosen, by one name only, and exactly the names that are not
in the list are refused. -/
theorem C69_registration_method :
    (∀ m, ∃ s, toRegMethod s = .ok m) ∧ (∀ s t m, toRegMethod s = .ok m → toRegMethod t = .ok m → s = t) ∧
      ∀ s, s ∉ ["icp", "gicp", "fast_gicp", "fast_gicp_st", "fast_vgicp", "ndt"] ↔ toRegMethod s = .throws := by
  have acc : ∀ s m, toRegMethod s = .ok m → s = (match m with
      | .icp => "icp" | .gicp => "gicp" | .fastGicp => "fast_gicp" | .fastGicpSt => "fast_gicp_st"
      | .fastVgicp => "fast_vgicp" | .ndt => "ndt" : String) := by
    intro s a h
    unfold toRegMethod at h
    repeat (split at h; · cases h; assumption)
    cases h
  refine ⟨fun m => ?_, fun s t m h1 h2 => (acc s m h1).trans (acc t m h2).symm, fun s => ?_⟩
  · cases m
    · exact ⟨"icp", rfl⟩
    · exact ⟨"gicp", rfl⟩
    · exact ⟨"fast_gicp", rfl⟩
    · exact ⟨"fast_gicp_st", rfl⟩
    · exact ⟨"fast_vgicp", rfl⟩
    · exact ⟨"ndt", rfl⟩
  · constructor
    · intro h
      simp only [List.mem_cons, List.not_mem_nil, or_false, not_or] at h
      obtain ⟨h1, h2, h3, h4, h5, h6⟩ := h
      simp [toRegMethod, h1, h2, h3, h4, h5, h6]
    · intro h hm
      simp only [List.mem_cons, List.not_mem_nil, or_false] at hm
      rcases hm with rfl | rfl | rfl | rfl | rfl | rfl <;> revert h <;> decide

/-- Names that are refused exist. -/
example : toCovMethod "censi" = .throws ∧ toPointMethod "" = .throws ∧ toRegMethod "ICP" = .throws := by decide

end Lidar

end Serpent
