import Verif.Basic.Outcome

/-!
# Delivery of messages between subscriptions of one process

The part of roscpp that the point cloud pipeline relies on. A subscription whose callback publishes one message for each message it
gets is a `Link`. Simplifications: names of topics are relative to the namespace of the node (all node handles of the code use
the namespace `serpent`, and `getTopic` gives the resolved name of the same topic); queues are unbounded (the code uses queues of
100 messages for subscribers and of 1 message for publishers; messages between objects of one process are handed over directly);
callbacks of one subscription run one after the other (no subscription of the code allows concurrent callbacks), callbacks of
different subscriptions run in any order; an exception in a callback ends the process.
-/

namespace Serpent

namespace Ros

/-- A subscription to `input`, the callback of which publishes on `output`. For the subscriptions made in node.cpp:35-72. -/
structure Link (S : Type) where
  stage : S
  input : String
  output : String
deriving DecidableEq, Repr

/-- State of the process: the messages that wait for each subscription, the number of messages it took, everything that was
published, and whether the process still runs. For the process of node.cpp:17-87. -/
structure Net (C : Type) where
  queue : Nat → List C
  calls : Nat → Nat
  log : List (String × C)
  alive : Bool

variable {S C : Type}

/-- Nothing was published. For the process of node.cpp:17-87. -/
def Net.init : Net C := ⟨fun _ => [], fun _ => 0, [], true⟩

/-- `publisher.publish(message)`: every subscription to the topic gets the message. Called by all components of node.cpp:35-72.
-/
def Net.publish (links : List (Link S)) (topic : String) (m : C) (s : Net C) : Net C :=
  { s with
    log := s.log ++ [(topic, m)]
    queue := fun k => match links[k]? with
      | none => s.queue k
      | some l => if l.input = topic then s.queue k ++ [m] else s.queue k }

/-- One callback of subscription `k` runs, if a message waits: `callback stage n message` is what the `n`-th call publishes. By
the spinner of node.cpp:75-82. -/
def Net.serve (links : List (Link S)) (callback : S → Nat → C → Outcome C) (k : Nat) (s : Net C) : Net C :=
  match links[k]?, s.queue k with
  | some l, m :: rest =>
    let s' := { s with
      queue := fun j => if j = k then rest else s.queue j
      calls := fun j => if j = k then s.calls j + 1 else s.calls j }
    match callback l.stage (s.calls k) m with
    | .ok r => s'.publish links l.output r
    | _ => { s' with alive := false }
  | _, _ => s

/-- What can happen: a message arrives from outside on the input topic, or a callback runs. For the process of node.cpp:17-87.
-/
inductive Event (C : Type) where
  | arrive (m : C)
  | serve (k : Nat)

/-- One event; after the end of the process nothing happens. For the process of node.cpp:17-87. -/
def Net.step (links : List (Link S)) (callback : S → Nat → C → Outcome C) (input : String) (s : Net C) : Event C → Net C
  | .arrive m => if s.alive then s.publish links input m else s
  | .serve k => if s.alive then s.serve links callback k else s

/-- A run. For the process of node.cpp:17-87. -/
def Net.run (links : List (Link S)) (callback : S → Nat → C → Outcome C) (input : String) (events : List (Event C)) : Net C :=
  events.foldl (Net.step links callback input) Net.init

/-- The messages published on a topic, in order. No counterpart in /repo. -/
def Net.on (s : Net C) (topic : String) : List C := s.log.filterMap fun e => if e.1 = topic then some e.2 else none

/-- No message waits. No counterpart in /repo. -/
def Net.Idle (links : List (Link S)) (s : Net C) : Prop := ∀ k < links.length, s.queue k = []

end Ros

end Serpent
