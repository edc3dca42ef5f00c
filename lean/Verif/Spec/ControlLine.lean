import Verif.Spec.LLConditions

/-!
# Specification: controls moved together
-/

namespace Verif

/-- The control positions `c` moved by `t` times `c'`: all four controls move together, in fixed proportion. Absent entries count
as zero. -/
noncomputable def CtrlDict.moved (c c' : CtrlDict) (t : ℝ) : CtrlDict :=
  { aileron := some (c.aileron.getD 0 + t * c'.aileron.getD 0)
    elevator := some (c.elevator.getD 0 + t * c'.elevator.getD 0)
    rudder := some (c.rudder.getD 0 + t * c'.rudder.getD 0)
    flap := some (c.flap.getD 0 + t * c'.flap.getD 0) }

/-- `y` is the value at `t` of the polynomial of degree two with coefficients `a`, `b`, `c`. -/
def AtQuad (a b c t y : ℝ) : Prop := y = a + b * t + c * t ^ 2

end Verif
