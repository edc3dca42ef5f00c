import Verif.Spec.MU
import Mathlib.Analysis.Calculus.Deriv.Basic

/-!
# Specification: exact derivatives of load curves
-/

namespace Verif

/-- loads that are polynomials of degree at most two in `x`, component by component -/
def quadLoads (P Q R : Loads) (x : ℝ) : Loads where
  FL := P.FL + Q.FL * x + R.FL * x ^ 2
  FD := P.FD + Q.FD * x + R.FD * x ^ 2
  FS := P.FS + Q.FS * x + R.FS * x ^ 2
  FX := P.FX + Q.FX * x + R.FX * x ^ 2
  FY := P.FY + Q.FY * x + R.FY * x ^ 2
  FZ := P.FZ + Q.FZ * x + R.FZ * x ^ 2
  MX := P.MX + Q.MX * x + R.MX * x ^ 2
  MY := P.MY + Q.MY * x + R.MY * x ^ 2
  MZ := P.MZ + Q.MZ * x + R.MZ * x ^ 2

/-- `D` holds the derivatives at `x` of the nine components of the load curve `f`, made non-dimensional with the dynamic
pressure `q`, the area `S` and the reference lengths -/
structure Deriv.IsExact (D : Deriv) (f : ℝ → Loads) (x q S lat long : ℝ) : Prop where
  CL : HasDerivAt (fun t => (f t).FL) (q * S * D.CL) x
  CD : HasDerivAt (fun t => (f t).FD) (q * S * D.CD) x
  CS : HasDerivAt (fun t => (f t).FS) (q * S * D.CS) x
  CX : HasDerivAt (fun t => (f t).FX) (q * S * D.CX) x
  CY : HasDerivAt (fun t => (f t).FY) (q * S * D.CY) x
  CZ : HasDerivAt (fun t => (f t).FZ) (q * S * D.CZ) x
  Cl : HasDerivAt (fun t => (f t).MX) (q * S * lat * D.Cl) x
  Cm : HasDerivAt (fun t => (f t).MY) (q * S * long * D.Cm) x
  Cn : HasDerivAt (fun t => (f t).MZ) (q * S * lat * D.Cn) x

end Verif
