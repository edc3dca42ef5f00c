import Verif.Model.MUCalls

/-!
# Specification: flight conditions that say too little
-/

namespace Verif

/-- an `aero_state` that is not empty but lacks the airspeed or the density, and has no local velocities either -/
structure AeroDict.Incomplete {ι : Type} (d : AeroDict ι) : Prop where
  given : d.truthy = true
  noField : d.localState = none
  lacks : d.Vmag = none ∨ d.rho = none

/-- the loops without a bound in the code are run for at least one pass -/
def Analysis.Runs : Analysis → Prop
  | .stallOnset _ n => 0 < n
  | .stallAirspeed _ _ _ _ k => 0 < k
  | _ => True

/-- the keys the code reads in an `aero_state` (`llmodel.py:160-222`, `propmodel.py:314-331`, `MU.py:796-937`) -/
def aeroKeys : List String := ["V_mag", "rho", "alpha", "beta", "roll_rate", "pitch_rate", "yaw_rate"]

/-- the `aero_state` with these numbers (no `local_state`), as the code reads it -/
def AeroDict.ofEntries {ι : Type} (l : List (String × ℝ)) : AeroDict ι where
  Vmag := dictGet l "V_mag"
  rho := dictGet l "rho"
  alpha := dictGet l "alpha"
  beta := dictGet l "beta"
  roll := dictGet l "roll_rate"
  pitch := dictGet l "pitch_rate"
  yaw := dictGet l "yaw_rate"
  other := l.any fun kv => kv.1 ∉ aeroKeys

/-- an `aero_state` as the methods document it (`MU.py:107-110`, `222-225`, `379-382`, ..., `1185-1188`):
'Dictionary keys for these are "alpha", "beta", "v_mag", and "rho" respectively' -/
def documentedState {ι : Type} (alpha beta V rho : ℝ) : AeroDict ι :=
  .ofEntries [("alpha", alpha), ("beta", beta), ("v_mag", V), ("rho", rho)]

/-- the same with the spelling of the examples (`README.md:31`, `MU.py:50`) -/
def exampleState {ι : Type} (alpha beta V rho : ℝ) : AeroDict ι :=
  .ofEntries [("alpha", alpha), ("beta", beta), ("V_mag", V), ("rho", rho)]

end Verif
