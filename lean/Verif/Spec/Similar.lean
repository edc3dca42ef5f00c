import Verif.Spec.CgFree
import Verif.Spec.PropSim
import Verif.Spec.LLInputs

/-!
# Specification: the answers for a similar flight

A flight `l` times the size, `k` times the speed, in air `m` times as dense: forces are `m k² l²` times as large, moments
`m k² l³` times, positions `l` times; angles and coefficients are the same.
-/

namespace Verif
open V3

/-- the same stall: the same wing, location on it and angle of attack, `a` times the lift -/
def StallResult.Like (a : ℝ) (r r' : StallResult) : Prop := r' = { r with lift := a * r.lift }

/-- the answers of `stall_onset` and `stall_airspeed`, where the answer of the latter contains an airspeed -/
def StallAnswer.Like (a : ℝ) : StallAnswer → StallAnswer → Prop
  | .stalled r, .stalled r' => r.Like a r'
  | .airspeed r v, .airspeed r' v' => r.Like a r' ∧ v' = v
  | .unstallable, .unstallable => True
  | _, _ => False

/-- the answer of a method for the similar flight -/
def Answer.Similar (l k m : ℝ) : Answer → Answer → Prop
  | .loads T, .loads T' => T' = T.scale (m * k ^ 2 * l ^ 2) (m * k ^ 2 * l ^ 3)
  | .stab D, .stab D' => D' = D
  | .damp D, .damp D' => D' = D
  | .cont D, .cont D' => D' = D
  | .all D, .all D' => D' = D
  | .stall r, .stall r' => Option.Rel (StallAnswer.Like (m * k ^ 2 * l ^ 2)) r r'
  | .trim r, .trim r' => r' = r
  | .point P, .point P' => P' = l • P
  | _, _ => False

/-- The answer of a method for the same aircraft displaced by `δ`: everything is the same, except that the aerodynamic centre is displaced
in `x` and `z` (the method reports it in the plane `y = 0`). -/
def Answer.Displaced (δ : V3) : Answer → Answer → Prop
  | .point P, .point P' => P' = P + ⟨δ.x, 0, δ.z⟩
  | a, a' => a' = a

/-- the same stall, whatever the name of the wing is and whichever tip or root the location on it is measured from -/
def StallResult.SameStall (r r' : StallResult) : Prop := r'.alpha = r.alpha ∧ r'.lift = r.lift

/-- the answers of `stall_onset` and `stall_airspeed` for an aircraft with other names of wings -/
def StallAnswer.SameStall : StallAnswer → StallAnswer → Prop
  | .stalled r, .stalled r' => r.SameStall r'
  | .airspeed r v, .airspeed r' v' => r.SameStall r' ∧ v' = v
  | .unstallable, .unstallable => True
  | _, _ => False

/-- The answer of a method for the same aircraft with other names of wings: the same, except for the location of the stall, which
contains a name. -/
def Answer.Renamed : Answer → Answer → Prop
  | .stall r, .stall r' => Option.Rel StallAnswer.SameStall r r'
  | a, a' => a' = a

/-- the call for the similar flight: a lift or moment that is asked for, and the error that is allowed in it, have to be scaled too -/
noncomputable def Analysis.similar (l k m : ℝ) : Analysis → Analysis
  | .targetLift L e f => .targetLift (m * k ^ 2 * l ^ 2 * L) e f
  | .pitchTrim L M e f => .pitchTrim (m * k ^ 2 * l ^ 2 * L) (m * k ^ 2 * l ^ 2 * M) (m * k ^ 2 * l ^ 2 * e) f
  | a => a

/-- The calls with an answer that obeys the similarity law; `given` means that a non-empty `control_state` is given.  `stall_airspeed`
starts from airspeeds that do not scale; `pitch_trim` allows the same error in the lift and in the moment, which scale differently
unless `l = 1`, and uses a fixed error if no controls are given. -/
def Analysis.Scales (l k m : ℝ) (given : Prop) : Analysis → Prop
  | .solve _ => True
  | .stallOnset _ _ => True
  | .stallAirspeed _ _ _ _ _ => l = 1 ∧ k = 1 ∧ m = 1
  | .pitchTrim _ _ _ _ => l = 1 ∧ 0 < m ∧ (given ∨ k = 1 ∧ m = 1)
  | _ => m ≠ 0

/-- the same call for the similar flight; `σ` numbers the sections of the other aircraft -/
noncomputable def Request.similar {ι ι' : Type} (l k m : ℝ) (σ : ι ≃ ι') (r : Request ι) : Request ι' :=
  ⟨r.what.similar l k m, r.aero.map fun d => ((d.faster k m).divRates l).reindex σ, r.ctrl, r.ps.map (PropDict.scaleRates (k / l))⟩

/-- the same call for an aircraft whose sections are numbered by `σ` -/
def Request.reindex {ι ι' : Type} (σ : ι ≃ ι') (r : Request ι) : Request ι' := ⟨r.what, r.aero.map (·.reindex σ), r.ctrl, r.ps⟩

/-- airspeed and density are given -/
def Request.Conditions {ι : Type} (r : Request ι) : Prop := ∃ d, r.aero = some d ∧ d.Vmag.isSome = true ∧ d.rho.isSome = true

/-- a non-empty `control_state` is given -/
def Request.Controls {ι : Type} (r : Request ι) : Prop := ∃ c, r.ctrl = some c ∧ c.truthy = true

/-- the propellers are driven at given advance ratios or rotation rates -/
def Request.NoPower {ι : Type} (r : Request ι) : Prop := ∀ x, r.ps = some x → x.NoPower

end Verif
