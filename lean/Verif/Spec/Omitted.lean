import Verif.Model.MUCalls

/-!
# Specification: entries of a state dictionary that are left out

The documentation of the methods lists `alpha`, `beta`, the rotation rates and the control deflections as optional entries
with the default 0.  Two dictionaries describe the same state if they differ only in that one of them leaves out entries the
other sets to 0.
-/

namespace Verif

/-- the same entry: equal, or left out in one dictionary and 0 in the other -/
inductive SameEntry : Option ℝ → Option ℝ → Prop
  | same (o : Option ℝ) : SameEntry o o
  | left : SameEntry none (some 0)
  | right : SameEntry (some 0) none

/-- two non-empty `aero_state` dictionaries for the same flight condition -/
structure AeroDict.SameCondition {ι : Type} (d d' : AeroDict ι) : Prop where
  given : d.truthy = true
  given' : d'.truthy = true
  Vmag : d'.Vmag = d.Vmag
  rho : d'.rho = d.rho
  localState : d'.localState = d.localState
  alpha : SameEntry d.alpha d'.alpha
  beta : SameEntry d.beta d'.beta
  roll : SameEntry d.roll d'.roll
  pitch : SameEntry d.pitch d'.pitch
  yaw : SameEntry d.yaw d'.yaw

/-- two non-empty `control_state` dictionaries with the same deflections -/
structure CtrlDict.SameDeflections (c c' : CtrlDict) : Prop where
  given : c.truthy = true
  given' : c'.truthy = true
  aileron : SameEntry c.aileron c'.aileron
  elevator : SameEntry c.elevator c'.elevator
  rudder : SameEntry c.rudder c'.rudder
  flap : SameEntry c.flap c'.flap

/-- two `aero_state` arguments: the same one, or two for the same flight condition -/
inductive SameAero {ι : Type} : Option (AeroDict ι) → Option (AeroDict ι) → Prop
  | same (a : Option (AeroDict ι)) : SameAero a a
  | entries (d d' : AeroDict ι) (h : d.SameCondition d') : SameAero (some d) (some d')

/-- two `control_state` arguments: the same one, or two with the same deflections -/
inductive SameCtrl : Option CtrlDict → Option CtrlDict → Prop
  | same (c : Option CtrlDict) : SameCtrl c c
  | entries (c c' : CtrlDict) (h : c.SameDeflections c') : SameCtrl (some c) (some c')

/-- two calls of the same method with the same states -/
structure AnyCall.SameBut {ι : Type} {B : Backend ι} (c c' : AnyCall B) : Prop where
  what : c'.what = c.what
  ps : c'.ps = c.ps
  aero : SameAero c.aero c'.aero
  ctrl : SameCtrl c.ctrl c'.ctrl

/-- the entry `alpha` of an argument -/
def alphaEntry {ι : Type} (a : Option (AeroDict ι)) : Option ℝ := a.bind AeroDict.alpha

end Verif
