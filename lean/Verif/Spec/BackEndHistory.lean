import Verif.Model.BackEnd
import Verif.Spec.Isam

/-!
# What the optimiser of the running back end is handed
-/

namespace Serpent

namespace BackEnd

open Graph

variable {Val D O C I : Type}

/-- The back end with an optimiser that keeps a record of the calls it accepted; otherwise the same. -/
def recorded (api : Api Val D O C I) : Api Val D (O × List (Event Val D)) C I where
  opt := recording api.opt
  changed o := api.changed o.1
  marginal o := api.marginal o.1
  compose := api.compose
  zeroBias := api.zeroBias
  validCov := api.validCov
  zeroSigma := api.zeroSigma
  preintegrate := api.preintegrate
  predict := api.predict
  nan := api.nan
  s2s := api.s2s
  velocity := api.velocity
  calibrate := api.calibrate
  obs := api.obs
  pressure := api.pressure
  height := api.height
  prior := api.prior
  zero := api.zero

/-- The calls the optimiser of a recorded back end accepted, oldest first. -/
def accepted (s : Sys Val D (O × List (Event Val D))) : List (Event Val D) := s.be.isam.opt.2

/-- The factors that still wait to be handed over. -/
def waitingFactors (g : GM Val D) : List (Factor D) := g.newFactors.flatMap (·.2)

/-- The optimiser after the given calls, if it accepts all of them. -/
def replay (opt : OptApi Val D O) : O → List (Event Val D) → Outcome O
  | o, [] => .ok o
  | o, .update fs vs :: evs => (opt.update o fs vs).bind fun o' => replay opt o' evs
  | o, .marginalize ks :: evs => (opt.marginalizeLeaves o ks).bind fun o' => replay opt o' evs

end BackEnd

end Serpent
