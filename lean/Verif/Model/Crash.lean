import Verif.Model.GraphManager

/-!
# What leaves the back end if the optimiser throws

The optimiser is called in a `try` block. The handlers print or save information and throw again.
-/

namespace Serpent

namespace Graph

variable {Val D : Type}

/-- Exceptions caught in optimisation.cpp:554-563: of the optimiser for a variable without enough constraints, or any other
`std::exception` with its message. `base` is an object of the class `std::exception` itself. -/
inductive Exn where
  | indeterminate (near : Key)
  | other (message : String)
  | base
deriving DecidableEq

/-- `factor->error(values)` (gtsam): throws if a variable of the factor has no value. The number is not modelled. Used in
graph_manager.cpp:284 and optimisation.cpp:656-668. -/
def factorError (g : GM Val D) (f : Factor D) : Outcome Unit :=
  if f.vars.all g.values.contains then .ok () else .throws

/-- The errors of a list of factors: `printErrors` (graph_manager.cpp:282-286), `connected_factors.error(values)`
(optimisation.cpp:653). -/
def factorErrors (g : GM Val D) : List (Factor D) → Outcome Unit
  | [] => .ok ()
  | f :: fs => factorError g f >>= fun _ => factorErrors g fs

/-- Conversion of a `gtsam::Key` (64 bits without sign) to `int`: the argument of `gm->stereo_camera` in optimisation.cpp:675 is
the key of the variable, not its number. -/
def keyToInt (k : Key) : Int :=
  if k % 2 ^ 32 < 2 ^ 31 then (k % 2 ^ 32 : Nat) else (k % 2 ^ 32 : Nat) - 2 ^ 32

/-- optimisation.cpp:675-688 for a stereo factor on the variables `x` and `l`. A camera without calibration is a null pointer that
is followed by `backproject`. That a point is behind the camera is caught. -/
def stereoInformation (g : GM Val D) (x l : Key) : Outcome Unit :=
  getVal g .X (keyToInt x) >>= fun _ =>
  if g.extrinsicSet = false then .throws
  else match g.calib with
    | none => .ub
    | some _ =>
      match g.values.find l with
      | some _ => .ok ()
      | none => .throws

/-- One factor of the loop optimisation.cpp:657-691. -/
def factorInformation (g : GM Val D) (f : Factor D) : Outcome Unit :=
  factorError g f >>= fun _ =>
  match f.kind, f.vars with
  | .stereo, [x, l] => stereoInformation g x l
  | _, _ => .ok ()

/-- The loop optimisation.cpp:657-691. -/
def factorsInformation (g : GM Val D) : List (Factor D) → Outcome Unit
  | [] => .ok ()
  | f :: fs => factorInformation g f >>= fun _ => factorsInformation g fs

/-- `print_information_at_key`, optimisation.cpp:634-692. That there is no covariance is caught. -/
def printInformation (g : GM Val D) (near : Key) : Outcome Unit :=
  match g.values.find near with
  | none => .throws
  | some _ =>
    factorErrors g (factorsForKey g near) >>= fun _ =>
    factorsInformation g (factorsForKey g near)

/-- `precrash_operations`, optimisation.cpp:619-632. Saving the graph skips variables without a value. -/
def precrash (print verbose : Bool) (g : GM Val D) : Outcome Unit :=
  if print && verbose then factorErrors g (allFactors g) else .ok ()

/-- The handlers of optimisation.cpp:554-563 for the exception `e`: which exception leaves the function (`.ok`), or that printing
throws another one. `throw ex` copies the object as declared in the handler: in the second one as `std::exception`. -/
def rethrown (print verbose : Bool) (g : GM Val D) : Exn → Outcome Exn
  | .indeterminate near =>
    precrash print verbose g >>= fun _ =>
    (if print then printInformation g near else .ok ()) >>= fun _ => .ok (.indeterminate near)
  | _ => precrash print verbose g >>= fun _ => .ok .base

end Graph

end Serpent
