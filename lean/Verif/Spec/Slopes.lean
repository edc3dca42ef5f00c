import Verif.Spec.FlightCond
import Verif.Spec.LLConditions
import Verif.Spec.MUExact
import Verif.Model.MachUp

/-!
# Specification vocabulary: slopes of load curves
-/

namespace Verif
open V3

/-- Each entry of `D` is, made dimensional with the dynamic pressure `q`, the area `S` and the reference lengths, the true derivative of the
corresponding component of the load curve `f` at some point strictly between `a` and `b`. -/
structure Deriv.IsSlopeWithin (D : Deriv) (f : ℝ → Loads) (a b q S lat long : ℝ) : Prop where
  CL : ∃ x, a < x ∧ x < b ∧ HasDerivAt (fun t => (f t).FL) (q * S * D.CL) x
  CD : ∃ x, a < x ∧ x < b ∧ HasDerivAt (fun t => (f t).FD) (q * S * D.CD) x
  CS : ∃ x, a < x ∧ x < b ∧ HasDerivAt (fun t => (f t).FS) (q * S * D.CS) x
  CX : ∃ x, a < x ∧ x < b ∧ HasDerivAt (fun t => (f t).FX) (q * S * D.CX) x
  CY : ∃ x, a < x ∧ x < b ∧ HasDerivAt (fun t => (f t).FY) (q * S * D.CY) x
  CZ : ∃ x, a < x ∧ x < b ∧ HasDerivAt (fun t => (f t).FZ) (q * S * D.CZ) x
  Cl : ∃ x, a < x ∧ x < b ∧ HasDerivAt (fun t => (f t).MX) (q * S * lat * D.Cl) x
  Cm : ∃ x, a < x ∧ x < b ∧ HasDerivAt (fun t => (f t).MY) (q * S * long * D.Cm) x
  Cn : ∃ x, a < x ∧ x < b ∧ HasDerivAt (fun t => (f t).MZ) (q * S * lat * D.Cn) x

/-- `f x` are the total loads of the wings with the controls `k` in the flight condition `d x`, wherever the wings can be solved. -/
def WingLoadCurve {n : ℕ} (G : LLGeom (Fin n)) (k : CtrlDict) (d : ℝ → AeroDict (Fin n)) (f : ℝ → Loads) : Prop :=
  ∀ x st R, (llSolve G st "linear" (some (d x)) (some k)).1 = .ok R → R.total = f x

/-- The wings can be solved in the flight condition `d`, with the controls `k`; at no section the disturbed air arrives from straight behind,
and at no section the undisturbed air blows along the bound vortex. -/
def RegularFlow {n : ℕ} (G : LLGeom (Fin n)) (k : CtrlDict) (d : AeroDict (Fin n)) : Prop :=
  ∃ st R, (llSolve G st "linear" (some d) (some k)).1 = .ok R ∧ NotFromBehind G.S R ∧
    ∀ w, IsWind (d.Vmag.getD 0) (d.alpha.getD 0) (d.beta.getD 0) w → ∀ i,
      cross (w - cross ⟨d.roll.getD 0, d.pitch.getD 0, d.yaw.getD 0⟩ ((G.S i).rcp - G.cg)) ((G.S i).r2 - (G.S i).r1) ≠ 0

end Verif
