import Verif.Spec.DeadControl
import Verif.Model.LLState

/-!
# Specification: control surfaces of zero chord

A control surface whose `percent_chord` is 0 takes up nothing of the section it is on.
-/

namespace Verif

/-- `percent_chord` is 0 at both ends -/
def PctChord.isZero : PctChord → Prop
  | .pair a b => a = 0 ∧ b = 0
  | .single c => c = 0

/-- The control moves no control surface of a chord other than 0: every call of `control_surface` that gives it a share in the mix has a
`percent_chord` of 0. -/
def MovesNoChord (ops : List PlaneOp) (x : Control) : Prop :=
  ∀ id props m ch, .controlSurface id props ∈ ops → props.mix = some m → props.percentChord = some ch → (m.entry x).getD 0 = 0 ∨ ch.isZero

/-- two solutions that agree in everything that is reported but the parasitic drag: circulations, velocities, angles, section
lift and moment coefficients, inviscid forces and moments and their totals -/
structure SameButDrag {ι : Type} (R R' : Sol ι) : Prop where
  gamma : R'.gamma = R.gamma
  vi : R'.vi = R.vi
  alpha : R'.alpha = R.alpha
  force : R'.force = R.force
  moment : R'.moment = R.moment
  cl : R'.cl = R.cl
  cm : R'.cm = R.cm
  inviscid : R'.inviscid = R.inviscid

/-- the deflection of section `i` in degrees for a `control_state`: every control times its share in the section's mix -/
def deflectionAt {ι : Type} (G : LLGeom ι) (c : CtrlDict) (i : ι) : ℝ :=
  (c.entry .aileron).getD 0 * (G.S i).mixA + (c.entry .elevator).getD 0 * (G.S i).mixE + (c.entry .rudder).getD 0 * (G.S i).mixR +
    (c.entry .flap).getD 0 * (G.S i).mixF

end Verif
