import Verif.Spec.FrontEnd

/-!
# Specification of the failures of the front end's callbacks

What was received and sent is in `s.ghost`; `s.phase` says where the running pointcloud callback is, `s.prevCloud` is the
pointcloud that it processes.
-/

namespace Serpent

namespace FrontEnd

open Utils

variable {K Q : Type}

/-- The measurement nearer to `t` of two measurements, the earlier one if they are equally near. -/
def nearer {A : Type} (a b : Stamped A) (t : Int) : Stamped A := if t - a.stamp ≤ b.stamp - t then a else b

/-- The covariances at time `t`, those of the nearer of the two measurements around `t`, are not valid. -/
def InvalidAt (valid : (Fin 3 → Fin 3 → K) → (Fin 3 → Fin 3 → K) → Bool) (imu : List (Stamped (ImuData K Q))) (t : Int) : Prop :=
  ∃ before a b after, imu = before ++ a :: b :: after ∧ a.stamp ≤ t ∧ t ≤ b.stamp ∧
    valid (nearer a b t).data.linearAccelerationCov (nearer a b t).data.angularVelocityCov = false

/-- The sections whose behaviour is undefined. -/
inductive Undefined (cfg : Cfg (ImuData K Q) K) (s : FE (ImuData K Q) K) : Ev (ImuData K Q) K → Prop where
  /-- the IMU measurements since the last state are to be sent, but none later than the last state has been received -/
  | noMeasurement {msg : Cloud} {t a : Int} : s.phase = .imu msg t → s.ghost.states.getLast? = some a →
      (∀ x ∈ s.ghost.imu, x.stamp ≤ a) → Undefined cfg s .go
  /-- a barometer reading is requested, but no barometer message has been received -/
  | noBarometer {msg : Cloud} {t : Int} : s.phase = .baro msg t → cfg.baro = true → s.ghost.baro = [] → Undefined cfg s .go

/-- The sections that end with an exception. -/
inductive Refused (valid : (Fin 3 → Fin 3 → K) → (Fin 3 → Fin 3 → K) → Bool) (cfg : Cfg (ImuData K Q) K)
    (s : FE (ImuData K Q) K) : Ev (ImuData K Q) K → Prop where
  /-- the pointcloud is empty -/
  | emptyCloud {msg : Cloud} : msg.empty = true → Refused valid cfg s (.cloud msg)
  /-- the biases of a state arrive before any IMU measurement not earlier than that state -/
  | early {t : Int} : (∀ x ∈ s.ghost.imu, x.stamp < t) → Refused valid cfg s (.optimisedA t)
  /-- the IMU covariances at the time of the state are not valid -/
  | covariance {t : Int} : InvalidAt valid s.ghost.imu t → Refused valid cfg s (.optimisedA t)
  /-- the first state is earlier than all measurements -/
  | lateStart {msg : Cloud} {t : Int} : s.phase = .init msg t → (∀ x ∈ s.ghost.imu, t < x.stamp) → Refused valid cfg s .go
  /-- there is only one measurement, stamped like the first state -/
  | single {msg : Cloud} {t : Int} : s.phase = .init msg t → s.ghost.imu.length < 2 → Refused valid cfg s .go
  /-- GTSAM refuses empty intervals, and an IMU measurement is stamped like the start of the sweep (not the first sweep) -/
  | atStart {msg prev : Cloud} {t : Int} {x : Stamped (ImuData K Q)} : s.phase = .deskew msg t → s.prevCloud = some prev →
      cfg.strict = true → 2 ≤ s.ghost.states.length → x ∈ s.ghost.imu → x.stamp = prev.start → Refused valid cfg s .go
  /-- GTSAM refuses empty intervals, and an IMU measurement is stamped like the end of the sweep -/
  | atEnd {msg prev : Cloud} {t : Int} {x : Stamped (ImuData K Q)} : s.phase = .deskew msg t → s.prevCloud = some prev →
      cfg.strict = true → 0 < prev.sweep → x ∈ s.ghost.imu → x.stamp = prev.stop → Refused valid cfg s .go
  /-- the first sweep starts before all measurements -/
  | firstSweep {msg prev : Cloud} {t : Int} : s.phase = .deskew msg t → s.prevCloud = some prev → s.ghost.states = [t] →
      0 < prev.sweep → (∀ x ∈ s.ghost.imu, prev.start < x.stamp) → Refused valid cfg s .go

end FrontEnd

end Serpent
