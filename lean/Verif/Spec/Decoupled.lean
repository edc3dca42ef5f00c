import Verif.Model.MU

/-!
# Specification vocabulary: longitudinal and lateral derivatives
-/

namespace Verif

/-- a derivative of the longitudinal loads only: no side force, rolling or yawing moment -/
structure Deriv.Longitudinal (D : Deriv) : Prop where
  CS : D.CS = 0
  CY : D.CY = 0
  Cl : D.Cl = 0
  Cn : D.Cn = 0

/-- a derivative of the lateral loads only: no lift, drag, axial or normal force, no pitching moment -/
structure Deriv.Lateral (D : Deriv) : Prop where
  CL : D.CL = 0
  CD : D.CD = 0
  CX : D.CX = 0
  CZ : D.CZ = 0
  Cm : D.Cm = 0

/-- the angle of attack changes longitudinal loads, the sideslip angle lateral ones -/
def StabDeriv.Decoupled (D : StabDeriv) : Prop := (∀ A, D.a = some A → A.Longitudinal) ∧ ∀ A, D.b = some A → A.Lateral

/-- the pitch rate changes longitudinal loads, the roll and yaw rates lateral ones -/
def DampDeriv.Decoupled (D : DampDeriv) : Prop :=
  (∀ A, D.p = some A → A.Lateral) ∧ (∀ A, D.q = some A → A.Longitudinal) ∧ ∀ A, D.r = some A → A.Lateral

/-- elevator and flap change longitudinal loads, aileron and rudder lateral ones -/
def ContDeriv.Decoupled (D : ContDeriv) : Prop :=
  (∀ A, D.da = some A → A.Lateral) ∧ (∀ A, D.de = some A → A.Longitudinal) ∧ (∀ A, D.dr = some A → A.Lateral) ∧
  ∀ A, D.df = some A → A.Longitudinal

end Verif
