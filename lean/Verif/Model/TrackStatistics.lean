import Verif.Basic.Outcome
import Mathlib.Algebra.Order.Field.Rat
import Mathlib.Data.Rat.Defs

/-!
# Model of the statistics of tracks in Matlab

Sources: `plotting/compute_frame_track_statistics.m`, `plotting/compute_track_retention.m`, `plotting/extract_statistics.m`.

Simplifications (apply to the whole file):
* A `containers.Map` is a function to `Option`. Counts are natural numbers, quotients rational numbers; "not a number" is `none`.
* Indices start from 0.
* Reading and writing outside of an array and assigning an empty array to an element are errors in Matlab: `throws`.
-/

namespace Serpent

namespace TrackStatistics

/-- `containers.Map` from ids to numbers of frames. In compute_frame_track_statistics.m:10-30. -/
abbrev Counts := Int → Option Nat

/-- compute_frame_track_statistics.m:19-23: the value for an id. `present_in_last_frame` is whether the map has the key. -/
def newCount (last : Counts) (id : Int) : Nat :=
  match last id with
  | some n => n + 1
  | none => 1

/-- compute_frame_track_statistics.m:17-25: `frames_tracked{i}` and `new_frame_data`. -/
def frameLoop (last : Counts) : Counts → List Int → List Nat × Counts
  | new, [] => ([], new)
  | new, id :: ids =>
    let new' : Counts := fun x => if x = id then some (newCount last id) else new x
    let r := frameLoop last new' ids
    (newCount last id :: r.1, r.2)

/-- `max` and `min` of a column; that of an empty one cannot be assigned to an element. In
compute_frame_track_statistics.m:32-38. -/
def extreme (better : Nat → Nat → Nat) : List Nat → Outcome Nat
  | [] => .throws
  | x :: xs => .ok (xs.foldl better x)

/-- `mean` of a column. In compute_frame_track_statistics.m:32-38. -/
def mean (l : List Nat) : Option ℚ := if l.length = 0 then none else some ((l.sum : ℚ) / l.length)

/-- What is computed for a frame. In compute_frame_track_statistics.m:10-38. -/
structure FrameTracks where
  tracked : List Nat
  mean : Option ℚ
  max : Nat
  min : Nat

/-- The loop, compute_frame_track_statistics.m:10-30. -/
def framesLoop : Counts → List (List Int) → Outcome (List FrameTracks)
  | _, [] => .ok []
  | last, ids :: rest =>
    let r := frameLoop last (fun _ => none) ids
    extreme Nat.max r.1 >>= fun mx =>
    extreme Nat.min r.1 >>= fun mn =>
    framesLoop r.2 rest >>= fun fs => .ok (⟨r.1, mean r.1, mx, mn⟩ :: fs)

/-- compute_frame_track_statistics.m:34-37: `frames_tracked_bins(i, n) += 1`. -/
def binLoop : List Nat → List Nat → Outcome (List Nat)
  | row, [] => .ok row
  | row, n :: ns =>
    match n with
    | 0 => .throws
    | k + 1 =>
      match row[k]? with
      | some c => binLoop (row.set k (c + 1)) ns
      | none => .throws

/-- The rows of `frames_tracked_bins`, compute_frame_track_statistics.m:32-38. -/
def binsLoop (width : Nat) : List FrameTracks → Outcome (List (List Nat))
  | [] => .ok []
  | f :: fs => binLoop (List.replicate width 0) f.tracked >>= fun row => binsLoop width fs >>= fun rows => .ok (row :: rows)

/-- The results of `compute_frame_track_statistics`. Source: compute_frame_track_statistics.m:1-39. -/
structure Tracks where
  frames : List FrameTracks
  maxDuration : Nat
  bins : List (List Nat)

/-- `compute_frame_track_statistics`, compute_frame_track_statistics.m:1-39. -/
def trackStatistics (matchIds : List (List Int)) : Outcome Tracks :=
  framesLoop (fun _ => none) matchIds >>= fun fs =>
  extreme Nat.max (fs.map FrameTracks.max) >>= fun d =>
  binsLoop d fs >>= fun bins => .ok ⟨fs, d, bins⟩

/-- `x ./ y` and `== Inf` to NaN, compute_track_retention.m:5-7: 0 / 0 is not a number and x / 0 infinite. -/
def fraction (tracked total : Nat) : Option ℚ := if total = 0 then none else some ((tracked : ℚ) / total)

/-- `compute_track_retention`, compute_track_retention.m:1-8: the first element is not a number. -/
def trackRetention (tracked total : List Nat) : Outcome (List (Option ℚ)) :=
  if tracked.tail.length = total.dropLast.length then .ok (none :: List.zipWith fraction tracked.tail total.dropLast) else .throws

/-- `mean_track_retention_fraction`, extract_statistics.m:38-40. -/
def meanRetention (fractions : List (Option ℚ)) : Option ℚ :=
  let l := fractions.filterMap id
  if l.length = 0 then none else some (l.sum / l.length)

end TrackStatistics

end Serpent
