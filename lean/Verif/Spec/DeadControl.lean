import Verif.Model.MUCalls
import Verif.Spec.Geometry

/-!
# Specification: controls that move no surface

A control (aileron, elevator, rudder or flap) moves the control surfaces that have it in their `mix`.  Two `control_state`
dictionaries that differ only in controls that move no surface describe the same aircraft.
-/

namespace Verif

/-- the four controls -/
inductive Control
  | aileron
  | elevator
  | rudder
  | flap
  deriving DecidableEq

/-- the entry of a `control_state` for a control -/
def CtrlDict.entry (c : CtrlDict) : Control → Option ℝ
  | .aileron => c.aileron
  | .elevator => c.elevator
  | .rudder => c.rudder
  | .flap => c.flap

/-- the entry of a `mix` dictionary for a control -/
def Mix.entry (m : Mix) : Control → Option ℝ
  | .aileron => m.aileron
  | .elevator => m.elevator
  | .rudder => m.rudder
  | .flap => m.flap

/-- No call of `control_surface` has given the control a share in the mix: it is missing or 0 in each of them. -/
def MovesNothing (ops : List PlaneOp) (x : Control) : Prop :=
  ∀ id props m, .controlSurface id props ∈ ops → props.mix = some m → (m.entry x).getD 0 = 0

/-- two non-empty `control_state` dictionaries with the same deflections, an entry left out counting as 0, of all controls outside `I` -/
structure CtrlDict.SameExcept (I : Control → Prop) (c c' : CtrlDict) : Prop where
  given : c.truthy = true
  given' : c'.truthy = true
  entry : ∀ x, ¬ I x → (c'.entry x).getD 0 = (c.entry x).getD 0

/-- two `control_state` arguments: the same one, or two that differ in controls in `I` only -/
inductive SameMoving (I : Control → Prop) : Option CtrlDict → Option CtrlDict → Prop
  | same (c : Option CtrlDict) : SameMoving I c c
  | entries (c c' : CtrlDict) (h : c.SameExcept I c') : SameMoving I (some c) (some c')

/-- two calls of the same method with the same arguments except for the deflections of controls in `I` -/
structure AnyCall.SameMoving {ι : Type} {B : Backend ι} (I : Control → Prop) (c c' : AnyCall B) : Prop where
  what : c'.what = c.what
  ps : c'.ps = c.ps
  aero : c'.aero = c.aero
  ctrl : Verif.SameMoving I c.ctrl c'.ctrl

/-- the derivatives with respect to a control -/
def ContDeriv.of (D : ContDeriv) : Control → Option Deriv
  | .aileron => D.da
  | .elevator => D.de
  | .rudder => D.dr
  | .flap => D.df

end Verif
