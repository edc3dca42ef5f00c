import Verif.Model.AeroCenter

/-!
# The analysis methods of a `MachUp` object as calls

One call names the method with its arguments; `perform` runs it on the object.  A history is any sequence of calls, each with
its own `aero_state`, `control_state` and `prop_state`; exceptions are caught by the caller.
Not among them: `distributions` (`Model/Distrib.lean`) and `create_stl` (`Model/StlCall.lean`).
-/

namespace Verif
open V3

/-- the methods of `MachUp` with their arguments other than the state dictionaries.  `fuel` and `sweep` bound the loops that
have no bound in the code. (`MU.py:101-1174`) -/
inductive Analysis
  /-- `solve` (`MU.py:101-190`) -/
  | solve (filename : Option String)
  /-- `stability_derivatives` (`MU.py:756-840`) -/
  | stability
  /-- `damping_derivatives` (`MU.py:842-948`) -/
  | damping
  /-- `control_derivatives` (`MU.py:952-1072`) -/
  | control
  /-- `derivatives` (`MU.py:689-753`) -/
  | derivatives (filename : Option String)
  /-- `stall_onset` (`MU.py:518-591`) -/
  | stallOnset (filename : Option String) (fuel : ℕ)
  /-- `stall_airspeed` (`MU.py:593-687`) -/
  | stallAirspeed (weight error : ℝ) (filename : Option String) (fuel sweep : ℕ)
  /-- `target_lift` (`MU.py:1074-1171`) -/
  | targetLift (L error : ℝ) (filename : Option String)
  /-- `pitch_trim` (`MU.py:1174-1288`) -/
  | pitchTrim (L M error : ℝ) (filename : Option String)
  /-- `find_aero_center` (`MU.py:374-515`) -/
  | aeroCenter (filename : Option String)

/-- what the methods return (`MU.py:190`, `372`, `515`, `591`, `687`, `753`, `840`, `948`, `1072`, `1171`, `1241`) -/
inductive Answer
  | loads (T : Loads)
  | stab (D : StabDeriv)
  | damp (D : DampDeriv)
  | cont (D : ContDeriv)
  | all (D : Option AllDerivs)
  | stall (r : Option StallAnswer)
  | trim (r : TrimAnswer)
  | point (P : V3)

variable {ι : Type} {B : Backend ι}

/-- the call of the method; `cg` is the centre of gravity of the grid (`MU.py:493`) -/
noncomputable def perform (ps : Option B.π) (cg : V3) : Analysis → Act (World B) Answer
  | .solve f => do return .loads (← muSolveFile ps f)
  | .stability => do return .stab (← stabilityDerivatives ps)
  | .damping => do return .damp (← dampingDerivatives ps)
  | .control => do return .cont (← controlDerivatives ps)
  | .derivatives f => do return .all (← derivatives ps f)
  | .stallOnset f n => do return .stall (← stallOnsetFile ps f n)
  | .stallAirspeed W e f n k => do return .stall (← stallAirspeed ps W e f n k)
  | .targetLift L e f => do return .trim (← targetLift ps L e f)
  | .pitchTrim L M e f => do return .trim (← pitchTrim ps L M e f)
  | .aeroCenter f => do return .point (← findAeroCenter ps cg f)

/-- a call with the caller's dictionaries at the time of the call and the propeller state (the arguments of the methods `MU.py:101-1174`) -/
structure AnyCall {ι : Type} (B : Backend ι) where
  what : Analysis
  aero : Option (AeroDict ι)
  ctrl : Option CtrlDict
  ps : Option B.π

/-- one call: the outcome, and the object together with the caller's dictionaries afterwards (the methods `MU.py:101-1174`) -/
noncomputable def AnyCall.run (cg : V3) (w : World B) (c : AnyCall B) : Except PyErr Answer × World B :=
  perform c.ps cg c.what { w with aero := c.aero, ctrl := c.ctrl }

/-- the object after a sequence of calls, successful or not (calls of the methods `MU.py:101-1174` one after the other) -/
noncomputable def afterCalls (cg : V3) (w : World B) (h : List (AnyCall B)) : World B :=
  h.foldl (fun w c => (c.run cg w).2) w

end Verif
