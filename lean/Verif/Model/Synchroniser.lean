import Verif.Basic.OMap
import Mathlib.Data.Fintype.Basic
import Mathlib.Data.Fin.Basic
import Mathlib.Logic.Function.Basic

/-!
# Model of the subscription queues and of the synchronisers by exact time

Sources (the uses): `serpent/src/front_end/frontend.cpp:36-53, 86-95`, `serpent/src/front_end/stereo/stereo_factor_finder.cpp:177-187`,
`serpent/include/serpent/front_end/lidar/registration-inl.hpp:73-82`, `serpent/include/serpent/mapping/mapping-inl.hpp:42-52`,
`camera_tools/src/change_frame_id.cpp:8-13`, `pointcloud_tools/include/pointcloud_tools/compute_distances.hpp:41`.

The behaviour is that of `message_filters::TimeSynchronizer` (policy `ExactTime`) and of the subscription queue of roscpp, which
are libraries outside /repo: they are part of what is trusted to be modelled rightly.

Simplifications (apply to the whole file):
* All inputs carry messages of one type `M`; in the code they differ by input and are kept apart by type.
* A callback connected to a synchroniser is the list of what it was called with.
* A message with a zero stamp is like any other; simulated time that jumps back does not occur.
-/

namespace Serpent

namespace Sync

/-- A message: the input it comes in by, its stamp, and itself. The inputs of `connectInput`, e.g. frontend.cpp:53. -/
structure Arrival (n : Nat) (M : Type) where
  input : Fin n
  stamp : Int
  msg : M
deriving DecidableEq

/-- A synchroniser with `n` inputs: the incomplete tuples by stamp, and the calls of the registered callback so far, the oldest
first. `optimised_odometry_sync`, `stereo_sync` (frontend.hpp:148, 161), `s2s_sync` (registration.hpp:92), `correct_map_sync`
(mapping.hpp:141). -/
structure State (n : Nat) (M : Type) where
  pending : OMap Int (Fin n → Option M) := []
  calls : List (Int × (Fin n → M)) := []

/-- The tuple if all its messages are there. `registerCallback`, e.g. frontend.cpp:54: the callback gets all messages. -/
def complete {n : Nat} {M : Type} (f : Fin n → Option M) : Option (Fin n → M) :=
  if h : ∀ i, (f i).isSome = true then some (fun i => (f i).get (h i)) else none

/-- The oldest tuples are dropped until at most `size` are left (`size` 0: no limit). The constructor argument 10, e.g.
frontend.cpp:36, 38, registration-inl.hpp:73, mapping-inl.hpp:42. -/
def trim {n : Nat} {M : Type} (size : Nat) (p : OMap Int (Fin n → Option M)) : OMap Int (Fin n → Option M) :=
  if size = 0 then p else p.drop (p.length - size)

/-- A message comes in: it is put in the tuple of its stamp (in place of an earlier one of the same input); if the tuple is
complete the callback is called and this and all older tuples are removed; then the queue is trimmed. `connectInput`, e.g.
frontend.cpp:53, 93-94, stereo_factor_finder.cpp:186, registration-inl.hpp:80, mapping-inl.hpp:51. -/
def receive {n : Nat} {M : Type} (size : Nat) (s : State n M) (a : Arrival n M) : State n M :=
  let f := Function.update ((s.pending.find a.stamp).getD (fun _ => none)) a.input (some a.msg)
  let p := s.pending.assign a.stamp f
  match complete f with
  | some g => { pending := trim size ((p.erase a.stamp).filter (fun e => decide (a.stamp < e.1))), calls := s.calls ++ [(a.stamp, g)] }
  | none => { s with pending := trim size p }

/-- The synchroniser after a history of messages, from its construction (e.g. frontend.cpp:36). -/
def after {n : Nat} {M : Type} (size : Nat) (h : List (Arrival n M)) : State n M := h.foldl (receive size) {}

/-- A subscription queue: a message comes in when the queue has room, or takes the place of the oldest (`cap` 0: no limit).
The second argument of `subscribe`, e.g. frontend.cpp:50-52, optimisation.cpp:60-98. -/
def push {M : Type} (cap : Nat) (q : List M) (m : M) : List M :=
  (if cap ≠ 0 ∧ cap ≤ q.length then q.drop 1 else q) ++ [m]

/-- What happens to a subscription: a message comes in, or a thread takes the oldest one to call the callback with it. The
spinners of node.cpp:75-82 take them. -/
inductive Ev (M : Type) where
  | arrive (m : M)
  | take
deriving DecidableEq

/-- A subscription: the messages waiting, and those its callback has been called with. `subscribe`, e.g. frontend.cpp:50. -/
structure Subscription (M : Type) where
  queue : List M := []
  handled : List M := []
deriving DecidableEq

/-- One event at a subscription, e.g. frontend.cpp:50-57. Taking from an empty queue does nothing. -/
def Subscription.step {M : Type} (cap : Nat) (s : Subscription M) : Ev M → Subscription M
  | .arrive m => { s with queue := push cap s.queue m }
  | .take =>
    match s.queue with
    | [] => s
    | m :: rest => { queue := rest, handled := s.handled ++ [m] }

/-- The subscription after some events, from its creation, e.g. frontend.cpp:50-57. -/
def Subscription.after {M : Type} (cap : Nat) (es : List (Ev M)) : Subscription M := es.foldl (Subscription.step cap) {}

end Sync

end Serpent
