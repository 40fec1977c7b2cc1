import Verif.Model.FrontEnd
import Verif.Spec.Utilities

/-!
# Specification of the front end
-/

namespace Serpent

namespace FrontEnd

open Utils

variable {A K : Type}

/-- The state time carried by a message to the back end. -/
def stateOf : Pub A K → Option Int
  | .initial t => some t
  | .imuS2s _ stop _ => some stop
  | _ => none

/-- The state times sent to the back end, in order. -/
def sentStates (s : FE A K) : List Int := s.pubs.filterMap stateOf

/-- The interval of an IMU array. -/
def intervalOf : Pub A K → Option (Int × Int)
  | .imuS2s start stop _ => some (start, stop)
  | _ => none

/-- A barometer reading. -/
def readingOf : Pub A K → Option (Pressure K)
  | .barometer p => some p
  | _ => none

/-- The barometer readings sent to the back end, in order. -/
def sentReadings (s : FE A K) : List (Pressure K) := s.pubs.filterMap readingOf

/-- The stamp of a deskewed pointcloud, as a `ros::Time`. -/
def cloudTimeOf : Pub A K → Option Int
  | .cloud usec => some (usec * 1000)
  | _ => none

/-- The stamp of a real-time odometry message. -/
def odometryOf : Pub A K → Option Int
  | .odometry t => some t
  | _ => none

/-- The stamp of a stereo frame that was passed on. -/
def stereoTimeOf : Pub A K → Option Int
  | .stereo t => some t
  | _ => none

/-- `ms` are the measurements needed for the interval from `a` to `b`: the last one not later than `a`, then all those
between `a` and `b`; `received` are all measurements so far. -/
def Covers (received : List (Stamped A)) (a b : Int) (ms : List (Stamped A)) : Prop :=
  ∃ before first after, received = before ++ first :: after ∧ first.stamp ≤ a ∧ (∀ x ∈ after, a < x.stamp) ∧
    ms = first :: after.filter (fun x => decide (x.stamp < b))

/-- Each measurement with the time since the one before, starting from `t`. -/
def steps (t : Int) : List (Stamped A) → List (Stamped A × Int)
  | [] => []
  | m :: rest => (m, m.stamp - t) :: steps m.stamp rest

/-- `p` is the reading for time `t` from the measurements `received`: the first one with its stamp replaced if none was
earlier or at the same time, else interpolated between two consecutive ones around `t`. -/
def IsReading [Field K] (received : List (Pressure K)) (t : Int) (p : Pressure K) : Prop :=
  (∃ first rest, received = first :: rest ∧ (∀ x ∈ received, t < x.stamp) ∧ p = { first with stamp := t }) ∨
  (∃ before a b after, received = before ++ a :: b :: after ∧ a.stamp ≤ t ∧ t ≤ b.stamp ∧
    interpolatePressure a b t = .ok p)

end FrontEnd

end Serpent
