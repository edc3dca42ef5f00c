import Verif.Spec.Slopes

/-!
# Specification vocabulary: slopes of loads over control deflections
-/

namespace Verif
open V3

/-- `c` is the mean of two true slopes of `F`: one at a point strictly between `a` and `m`, one at a point strictly between `m` and `b`. -/
def MeanSlope (F : ℝ → ℝ) (a m b c : ℝ) : Prop :=
  ∃ x y s t, a < x ∧ x < m ∧ m < y ∧ y < b ∧ HasDerivAt F s x ∧ HasDerivAt F t y ∧ c = (s + t) / 2

/-- Each entry of `D` is, made dimensional with the dynamic pressure `q`, the area `S` and the reference lengths, the mean of two true slopes
of the corresponding component of the load curve `f`, on either side of `m` between `a` and `b`. -/
structure Deriv.IsMeanSlope (D : Deriv) (f : ℝ → Loads) (a m b q S lat long : ℝ) : Prop where
  CL : MeanSlope (fun t => (f t).FL) a m b (q * S * D.CL)
  CD : MeanSlope (fun t => (f t).FD) a m b (q * S * D.CD)
  CS : MeanSlope (fun t => (f t).FS) a m b (q * S * D.CS)
  CX : MeanSlope (fun t => (f t).FX) a m b (q * S * D.CX)
  CY : MeanSlope (fun t => (f t).FY) a m b (q * S * D.CY)
  CZ : MeanSlope (fun t => (f t).FZ) a m b (q * S * D.CZ)
  Cl : MeanSlope (fun t => (f t).MX) a m b (q * S * lat * D.Cl)
  Cm : MeanSlope (fun t => (f t).MY) a m b (q * S * long * D.Cm)
  Cn : MeanSlope (fun t => (f t).MZ) a m b (q * S * lat * D.Cn)

/-- `f x` are the total loads of the wings with the controls `k x` in the flight condition `d`, wherever the wings can be solved. -/
def ControlLoadCurve {n : ℕ} (G : LLGeom (Fin n)) (d : AeroDict (Fin n)) (k : ℝ → CtrlDict) (f : ℝ → Loads) : Prop :=
  ∀ x st R, (llSolve G st "linear" (some d) (some (k x))).1 = .ok R → R.total = f x

/-- When the control `k` is moved by up to a quarter of a degree from `m`, no surface that moves with it is deflected by exactly 11 degrees
either way, and none passes its neutral position, except possibly at `m` itself. -/
structure ClearOfKinks {n : ℕ} (G : LLGeom (Fin n)) (k : ℝ → CtrlDict) (m : ℝ) : Prop where
  eleven : ∀ i, (∀ x y, (k x).deflects (G.S i) = (k y).deflects (G.S i)) ∨ ∀ x, |x - m| ≤ 0.25 → |(k x).deflects (G.S i)| ≠ 11
  neutral : ∀ i, (∀ x y, (k x).deflects (G.S i) = (k y).deflects (G.S i)) ∨
    ∀ x, |x - m| ≤ 0.25 → x ≠ m → (k x).deflects (G.S i) ≠ 0

end Verif
