import Verif.Model.LidarPipeline

/-!
# What the lidar pipeline should do
-/

namespace Serpent

namespace Lidar

open Ros

/-- The enabled filters in the fixed order. -/
def enabledFilters (c : FilterConfig) : List Stage :=
  (if c.voxel then [.voxel] else []) ++ (if c.body then [.body] else []) ++ (if c.range then [.range] else []) ++
    (if c.outliers then [.outliers] else []) ++ (if c.sample then [.sample] else [])

/-- The `i`-th cloud after all the stages, one after the other. -/
def passThrough {C : Type} (stage : Stage → Nat → C → Outcome C) : List Stage → Nat → C → Outcome C
  | [], _, c => .ok c
  | s :: rest, i, c => stage s i c >>= passThrough stage rest i

/-- The clouds that arrive from outside. -/
def arrivals {C : Type} (events : List (Event C)) : List C :=
  events.filterMap fun e => match e with
    | .arrive m => some m
    | .serve _ => none

end Lidar

end Serpent
