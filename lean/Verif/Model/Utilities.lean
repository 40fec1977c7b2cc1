import Verif.Basic.Outcome
import Mathlib.Algebra.Order.Field.Basic

/-!
# Model of `serpent/src/utils/utilities.cpp` and of `eigen_ros::interpolate` for IMU measurements

Simplifications (apply to the whole file):
* `ros::Time` and `ros::Duration` are integers (nanoseconds).
* Floating point numbers are elements of an ordered field `K` (no rounding).
-/

namespace Serpent

namespace Utils

variable {K A P : Type}

/-- Anything with a time stamp. For utilities.cpp:15-53. -/
structure Stamped (A : Type) where
  stamp : Int
  data : A
deriving DecidableEq, Repr

/-! ### IMU buffers -/

/-- `delete_old_measurements`, utilities.cpp:15-19. -/
def deleteOld (t : Int) : List (Stamped A) → List (Stamped A)
  | [] => []
  | m :: rest => if m.stamp < t then deleteOld t rest else m :: rest

/-- Loop of utilities.cpp:35-52. `tm` is `integration_time`; `integ p m dt` is
`preint.integrateMeasurement(m.linear_acceleration, m.angular_velocity, dt)`. -/
def integrateLoop (integ : P → Stamped A → Int → Outcome P) (start stop : Int) :
    List (Stamped A) → Int → P → Outcome P
  | [], _, p => .ok p
  | m :: rest, tm, p =>
    if m.stamp > stop then .ok p
    else
      match rest with
      | [] => integ p m (stop - tm)
      | n :: rest' =>
        if n.stamp > start then
          integ p m (min n.stamp stop - tm) >>= fun p' =>
            integrateLoop integ start stop (n :: rest') (min n.stamp stop) p'
        else integrateLoop integ start stop (n :: rest') tm p

/-- `integrate_imu`, utilities.cpp:21-53. -/
def integrateImu (integ : P → Stamped A → Int → Outcome P) (buffer : List (Stamped A)) (start stop : Int) (p : P) :
    Outcome P :=
  if start = stop then .ok p
  else
    match buffer with
    | [] => .throws
    | [_] => .throws
    | first :: _ :: _ => if first.stamp > start then .throws else integrateLoop integ start stop buffer start p

/-- `PreintegratedCombinedMeasurements::integrateMeasurement`, as a record of the measurements integrated and of their
durations. GTSAM (4.1 and later) throws for a duration that is not positive (`strict`). Called in utilities.cpp:35-52. -/
def record (strict : Bool) (p : List (Stamped A × Int)) (m : Stamped A) (dt : Int) : Outcome (List (Stamped A × Int)) :=
  if strict ∧ dt ≤ 0 then .throws else .ok (p ++ [(m, dt)])

/-! ### Interpolation -/

section
variable [Field K] [LinearOrder K]

/-- `interpolate`, utilities-inl.hpp:8-17. -/
def interpolate (v1 v2 : K) (t1 t2 t : Int) : Outcome K :=
  if t2 ≤ t1 ∨ t < t1 ∨ t > t2 then .throws
  else .ok ((1 - ((t - t1 : Int) : K) / ((t2 - t1 : Int) : K)) * v1 + ((t - t1 : Int) : K) / ((t2 - t1 : Int) : K) * v2)

/-- `sensor_msgs::FluidPressure`. For utilities-inl.hpp:8-17. -/
structure Pressure (K : Type) where
  stamp : Int
  frame : String
  pressure : K
  variance : K
deriving DecidableEq, Repr

/-- `interpolate_pressure`, utilities.cpp:55-65. -/
def interpolatePressure (p1 p2 : Pressure K) (t : Int) : Outcome (Pressure K) := do
  let p ← interpolate p1.pressure p2.pressure p1.stamp p2.stamp t
  let v ← interpolate p1.variance p2.variance p1.stamp p2.stamp t
  .ok { stamp := t, frame := p1.frame, pressure := p, variance := v }

/-- `eigen_ros::Imu` without its time stamp. Orientations are elements of an arbitrary type `Q`. Source: eigen_ros
imu.hpp:14-57. -/
structure ImuData (K Q : Type) where
  orientation : Q
  angularVelocity : Fin 3 → K
  linearAcceleration : Fin 3 → K
  orientationCov : Fin 3 → Fin 3 → K
  angularVelocityCov : Fin 3 → Fin 3 → K
  linearAccelerationCov : Fin 3 → Fin 3 → K
  frame : String

/-- `linear_interpolate`, eigen_ext/matrix.hpp:110-114. -/
def lerp (m1 m2 : Fin 3 → K) (s : K) : Fin 3 → K := fun i => (1 - s) * m1 i + s * m2 i

/-- `eigen_ros::interpolate`, eigen_ros/src/imu.cpp:70-96. `zeroQ` is `Quaterniond(0, 0, 0, 0)`. -/
def interpolateImu {Q : Type} [DecidableEq Q] (zeroQ : Q) (slerp : K → Q → Q → Q) (m1 m2 : Stamped (ImuData K Q)) (t : Int) :
    Outcome (Stamped (ImuData K Q)) :=
  if t < m1.stamp ∨ t > m2.stamp then .throws
  else if m1.stamp = m2.stamp then .ok m1
  else
    let s : K := ((t - m1.stamp : Int) : K) / ((m2.stamp - m1.stamp : Int) : K)
    .ok {
      stamp := t
      data := {
        orientation :=
          if m1.data.orientation = zeroQ ∨ m2.data.orientation = zeroQ then zeroQ
          else slerp s m1.data.orientation m2.data.orientation
        angularVelocity := lerp m1.data.angularVelocity m2.data.angularVelocity s
        linearAcceleration := lerp m1.data.linearAcceleration m2.data.linearAcceleration s
        orientationCov := if s ≤ 1 / 2 then m1.data.orientationCov else m2.data.orientationCov
        angularVelocityCov := if s ≤ 1 / 2 then m1.data.angularVelocityCov else m2.data.angularVelocityCov
        linearAccelerationCov := if s ≤ 1 / 2 then m1.data.linearAccelerationCov else m2.data.linearAccelerationCov
        frame := if s ≤ 1 / 2 then m1.data.frame else m2.data.frame } }

end

/-! ### Waiting -/

/-- What a thread can be seen to do while it waits. In utilities.cpp:74-89. -/
inductive WaitAct where
  | lock
  | unlock
  | evaluate
  | sleep
deriving DecidableEq, Repr

/-- State seen by `protected_sleep`: the world that the mutex protects, whether the caller holds the mutex, what it did so far,
and how often `ros::ok()` was called. For utilities.cpp:74-89. -/
structure Wait (W : Type) where
  world : W
  held : Bool
  acts : List (WaitAct × Bool) := []
  calls : Nat := 0

variable {W : Type}

/-- Do an action; the record keeps whether the mutex was held at that time. In utilities.cpp:74-89. -/
def Wait.act (a : WaitAct) (s : Wait W) : Wait W := { s with acts := s.acts ++ [(a, s.held)] }

/-- `mutex.lock()`: other threads (`env`) may run until the mutex is free. In utilities.cpp:74-89. -/
def Wait.lock (s : Wait W) : Wait W := { s.act .lock with held := true }

/-- `mutex.unlock()`. In utilities.cpp:74-89. -/
def Wait.unlock (s : Wait W) : Wait W := { s.act .unlock with held := false }

/-- Loop of utilities.cpp:80-84. `ok n` is the answer to the `n`-th call of `ros::ok()`, `env n` what other threads do while
the mutex is free after it. `fuel` bounds the iterations (`none`: still waiting). -/
def sleepLoop (cond : W → Bool) (ok : Nat → Bool) (env : Nat → W → W) : Nat → Wait W → Option (Wait W)
  | 0, _ => none
  | fuel + 1, s =>
    let s1 := { s with calls := s.calls + 1 }
    if ok s.calls then
      let s2 := s1.act .evaluate
      if cond s2.world then
        let s3 := s2.unlock.act .sleep
        sleepLoop cond ok env fuel { s3.lock with world := env s.calls s3.world }
      else some s2
    else some s1

/-- `protected_sleep`, utilities.cpp:74-89. `before` is what other threads do before the first lock is obtained, `after`
what they do between an unlock at the end and the return. -/
def protectedSleep (cond : W → Bool) (ok : Nat → Bool) (before : W → W) (env : Nat → W → W) (after : W → W)
    (alreadyLocked leaveLocked : Bool) (fuel : Nat) (s : Wait W) : Option (Bool × Wait W) :=
  let s0 := if alreadyLocked then s else { s.lock with world := before s.world }
  match sleepLoop cond ok env fuel s0 with
  | none => none
  | some s1 =>
    let s2 := if leaveLocked then s1 else { s1.unlock with world := after s1.world }
    some (ok s2.calls, { s2 with calls := s2.calls + 1 })

end Utils

end Serpent
