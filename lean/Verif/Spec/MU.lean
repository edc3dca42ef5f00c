import Verif.Model.MU

/-!
# Specification vocabulary for the analyses of the `MachUp` class
-/

namespace Verif

variable {ι : Type} {B : Backend ι}

/-- the dictionary without its `local_state` entry -/
def AeroDict.sansField (d : AeroDict ι) : AeroDict ι := { d with localState := none }

/-- `d'` has the same entries as `d`; only for a plane with propellers and wings the entry `local_state`, which `solve`
stores in the caller's dictionary (C40), may differ. -/
def SameEntries (B : Backend ι) (d d' : AeroDict ι) : Prop :=
  d'.sansField = d.sansField ∧ ((B.hasProps && B.hasWings) = false → d' = d)

/-- `r` is what a call of `solve` returned whose `aero_state` had the entries of `d` and whose `control_state` was `c`. -/
def SolvedAt (ps : Option B.π) (d : AeroDict ι) (c : Option CtrlDict) (r : Loads) : Prop :=
  ∃ (w w' : World B) (d' : AeroDict ι), w.aero = some d' ∧ SameEntries B d d' ∧ w.ctrl = c ∧ muSolve ps w = (.ok r, w')

/-- `D` are the central differences of the nine load components over `±h`, made non-dimensional with the dynamic pressure
`q`, the area `S` and the reference lengths. -/
def Deriv.IsCentralDifference (D : Deriv) (forw back : Loads) (h q S lat long : ℝ) : Prop :=
  D.CL = (forw.FL - back.FL) / (2 * h) / (q * S) ∧
  D.CD = (forw.FD - back.FD) / (2 * h) / (q * S) ∧
  D.CS = (forw.FS - back.FS) / (2 * h) / (q * S) ∧
  D.CX = (forw.FX - back.FX) / (2 * h) / (q * S) ∧
  D.CY = (forw.FY - back.FY) / (2 * h) / (q * S) ∧
  D.CZ = (forw.FZ - back.FZ) / (2 * h) / (q * S) ∧
  D.Cl = (forw.MX - back.MX) / (2 * h) / (q * S * lat) ∧
  D.Cm = (forw.MY - back.MY) / (2 * h) / (q * S * long) ∧
  D.Cn = (forw.MZ - back.MZ) / (2 * h) / (q * S * lat)

/-- A reported set of derivatives: the central differences, or not-a-number exactly if one of the divisors vanishes. -/
def ReportedDerivative (B : Backend ι) (D : Option Deriv) (forw back : Loads) (h q : ℝ) : Prop :=
  (∀ D', D = some D' → D'.IsCentralDifference forw back h q B.Sw B.lat B.long) ∧
  (D = none ↔ q * B.Sw = 0 ∨ B.lat = 0 ∨ B.long = 0)

/-- the dictionary without `alpha`, `beta` and `local_state` -/
def AeroDict.sansAngles (d : AeroDict ι) : AeroDict ι := { d with alpha := none, beta := none, localState := none }

/-- the dictionary without `alpha` and `local_state` -/
def AeroDict.sansAlpha (d : AeroDict ι) : AeroDict ι := { d with alpha := none, localState := none }

/-- the dictionary without the rotation rates and `local_state` -/
def AeroDict.sansRates (d : AeroDict ι) : AeroDict ι :=
  { d with roll := none, pitch := none, yaw := none, localState := none }

/-- the dictionary without `elevator` -/
def CtrlDict.sansElevator (c : CtrlDict) : CtrlDict := { c with elevator := none }

/-- dynamic pressure of the state: missing entries are the documented defaults 0.0023769 and 10 -/
noncomputable def AeroDict.q (d : AeroDict ι) : ℝ := d.rho.getD 0.0023769 * d.Vmag.getD 10 ^ 2 / 2

/-- one degree in radians -/
noncomputable def degree : ℝ := Real.pi / 180

end Verif
