import Verif.Spec.MU
import Mathlib.Analysis.SpecialFunctions.Trigonometric.Basic

/-!
# Specification: the model forms behind `find_aero_center`
-/

namespace Verif
open V3

/-- An aircraft whose lift is `A (sin a - tan(aL0) cos a)`, whose drag polar is `CD0 + CD1 CL + CD2 CL²` and whose pitching
moment is `c1 sin 2a + c2 CN + c3 CA`. -/
structure PolarModel where
  A : ℝ
  aL0 : ℝ
  CD0 : ℝ
  CD1 : ℝ
  CD2 : ℝ
  c1 : ℝ
  c2 : ℝ
  c3 : ℝ

namespace PolarModel
variable (m : PolarModel)

/-- lift coefficient at the angle `a` (radians) -/
noncomputable def CL (a : ℝ) : ℝ := m.A * (Real.sin a - Real.tan m.aL0 * Real.cos a)
/-- drag coefficient -/
noncomputable def CD (a : ℝ) : ℝ := m.CD0 + m.CD1 * m.CL a + m.CD2 * m.CL a ^ 2
/-- normal force coefficient -/
noncomputable def CN (a : ℝ) : ℝ := m.CL a * Real.cos a + m.CD a * Real.sin a
/-- axial force coefficient -/
noncomputable def CA (a : ℝ) : ℝ := m.CD a * Real.cos a - m.CL a * Real.sin a
/-- pitching moment coefficient -/
noncomputable def Cm (a : ℝ) : ℝ := m.c1 * Real.sin (2 * a) + m.c2 * m.CN a + m.c3 * m.CA a

/-- the aerodynamic centre relative to the centre of gravity, by the closed-form expressions of the code for the
coefficients of the model, at the angle `a0` (radians) -/
noncomputable def center (long a0 : ℝ) : V3 where
  x := long * ((4 + 2 * m.CD0 / m.A + (12 * a0 ^ 2 - 4) * m.CD2 * m.A) /
    (2 * m.A + 3 * m.CD0 - 2 * m.CD2 * m.A ^ 2) * m.c1 + m.c2)
  y := 0
  z := -long * ((4 * m.aL0 + 4 * m.CD1 + 12 * a0 * m.CD2 * m.A) /
    (2 * m.A + 3 * m.CD0 - 2 * m.CD2 * m.A ^ 2) * m.c1 + m.c3)

end PolarModel

variable {ι : Type} {B : Backend ι}

/-- in the states with the entries of `d` and any angle of attack `x` in `[-10, 10)`, `solve` succeeds and the loads are
`F x` -/
def LoadCurve (ps : Option B.π) (d : AeroDict ι) (c : Option CtrlDict) (F : ℝ → Loads) : Prop :=
  ∀ (x : ℝ) (w : World B) (d' : AeroDict ι), -10 ≤ x → x < 10 → w.aero = some d' →
    SameEntries B { d with alpha := some x } d' → w.ctrl = c → ∃ w', muSolve ps w = (.ok (F x), w')

/-- `F` has the normal force, axial force and pitching moment of the model `m`, with `q S` the dynamic pressure times area -/
def FollowsModel (F : ℝ → Loads) (m : PolarModel) (qS long : ℝ) : Prop :=
  ∀ x : ℝ, -(F x).FZ = qS * m.CN (x * degree) ∧ -(F x).FX = qS * m.CA (x * degree) ∧
    (F x).MY = qS * long * m.Cm (x * degree)

end Verif
