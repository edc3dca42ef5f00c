import Verif.Model.LLState
import Verif.Model.Grid

/-!
# Specification: the flight condition and the control positions a solve is asked for

Written from the dictionary entries, with absent entries counted as zero.
-/

namespace Verif
open V3

/-- `w` is the velocity of the air for airspeed `V`, incidence `α` and sideslip `β` in degrees: it has magnitude `|V|` and points along
`-(cos α cos β, cos α sin β, sin α cos β)`. -/
def IsWind (V α β : ℝ) (w : V3) : Prop :=
  nrm w = |V| ∧ ∃ k : ℝ, 0 ≤ k * V ∧
    w = -(k • (⟨Real.cos (α * (Real.pi / 180)) * Real.cos (β * (Real.pi / 180)),
      Real.cos (α * (Real.pi / 180)) * Real.sin (β * (Real.pi / 180)),
      Real.sin (α * (Real.pi / 180)) * Real.cos (β * (Real.pi / 180))⟩ : V3))

/-- `u` is the direction of the vector `w`. -/
def IsDirection (w u : V3) : Prop := ∃ k : ℝ, 0 < k ∧ w = k • u ∧ nrm u = 1

variable {ι : Type*}

/-- The air at the sections (velocities `v`, densities `rho`) and the direction `u` of the wake are those of the dictionary `d`: the
entry of `local_state` for the section, or without it the common wind and density; less the velocity of the control point of the
section due to the rotation about the centre of gravity. The wake leaves along the common wind, or along the mean of the
velocities in `local_state` if no airspeed is given. -/
structure FlowOf [Fintype ι] (G : LLGeom ι) (d : AeroDict ι) (v : ι → V3) (u : V3) (rho : ι → ℝ) : Prop where
  /-- with `local_state` -/
  given : ∀ ls, d.localState = some ls →
    (∀ i, rho i = (ls i).1 ∧ v i + cross ⟨d.roll.getD 0, d.pitch.getD 0, d.yaw.getD 0⟩ ((G.S i).rcp - G.cg) = (ls i).2) ∧
    (∀ V, d.Vmag = some V → ∃ w, IsWind V (d.alpha.getD 0) (d.beta.getD 0) w ∧ IsDirection w u) ∧
    (d.Vmag = none → IsDirection (∑ i, (ls i).2) u)
  /-- without it -/
  uniform : d.localState = none → ∃ V r w, d.Vmag = some V ∧ d.rho = some r ∧ IsWind V (d.alpha.getD 0) (d.beta.getD 0) w ∧
    IsDirection w u ∧
    ∀ i, rho i = r ∧ v i + cross ⟨d.roll.getD 0, d.pitch.getD 0, d.yaw.getD 0⟩ ((G.S i).rcp - G.cg) = w

/-- deflection of the control surface of a section in degrees -/
def CtrlDict.deflects (c : CtrlDict) (s : Section) : ℝ :=
  s.mixA * c.aileron.getD 0 + s.mixE * c.elevator.getD 0 + s.mixR * c.rudder.getD 0 + s.mixF * c.flap.getD 0

/-- `e` is the fraction of its effectiveness a surface keeps when deflected by `δ` degrees: all of it up to 11 degrees either way, and
beyond that it falls linearly. -/
def KeepsEffect (δ e : ℝ) : Prop :=
  (|δ| ≤ 11 → e = 1) ∧ (11 < |δ| → e = 1.09589743589744 - 0.00871794871794872 * |δ|)

/-- the controls of the sections (angles in radians) are those of the dictionary -/
def ControlsOf (G : LLGeom ι) (c : CtrlDict) (C : Ctrl ι) : Prop :=
  ∀ i, C.delta i = c.deflects (G.S i) * (Real.pi / 180) ∧ KeepsEffect (c.deflects (G.S i)) (C.eff i)

/-- how far the control surface `k` of a segment on the given side deflects, in degrees: ailerons and rudders go the other way on
the left -/
def CtrlSurf.deflection (k : CtrlSurf) (side : Side) (c : CtrlDict) : ℝ :=
  let m : ℝ := match side with
    | .right => 1
    | .left => -1
  m * (k.aileron.getD 0 * c.aileron.getD 0 + k.rudder.getD 0 * c.rudder.getD 0) +
    (k.elevator.getD 0 * c.elevator.getD 0 + k.flap.getD 0 * c.flap.getD 0)

end Verif
