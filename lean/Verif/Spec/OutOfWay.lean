import Verif.Model.Session
import Verif.Spec.Geometry
import Verif.Spec.PropElement

/-!
# Vocabulary for propellers that are out of the way of the wings (C147)
-/

namespace Verif
open V3

/-- the call builds a propeller -/
def PlaneOp.aboutProp : PlaneOp → Bool
  | .addProp _ _ => true
  | .propAirfoil _ _ _ => true
  | _ => false

/-- the call builds a wing -/
def PlaneOp.aboutWing : PlaneOp → Bool
  | .addWing _ _ _ _ _ => true
  | .airfoil _ _ _ _ => true
  | .controlSurface _ _ => true
  | _ => false

/-- The point is outside the slipstream: it is not behind the propeller disc, or it is farther than half a diameter from every point of the
axis of the propeller. -/
def PropGeom.Misses (q : PropGeom) (pt : V3) : Prop :=
  ∃ f, AxisOf q f ∧ (0 ≤ dot (pt - q.position) f ∨ ∀ t : ℝ, q.diameter / 2 < nrm (pt - (q.position + t • f)))

/-- The same flight condition, for another aircraft: no velocities at the control points of the wings are given. -/
def AeroDict.elsewhere {ι κ : Type} (d : AeroDict ι) : AeroDict κ :=
  { Vmag := d.Vmag, rho := d.rho, alpha := d.alpha, beta := d.beta, roll := d.roll, pitch := d.pitch, yaw := d.yaw, other := d.other }

/-- One call of `solve`: `aero_state`, `control_state` and `prop_state`. -/
structure SolveArgs (ι : Type) where
  aero : AeroDict ι
  ctrl : Option CtrlDict
  prop : Option PropDict

/-- the same call for another aircraft -/
def SolveArgs.elsewhere {ι κ : Type} (a : SolveArgs ι) : SolveArgs κ := ⟨a.aero.elsewhere, a.ctrl, a.prop⟩

/-- The results of calls of `solve`, one after the other on one object; the first exception ends them. -/
noncomputable def Analyser.solves (o : Analyser) (p : Plane) (simps : List ℝ → List ℝ → ℝ) (fuel : ℕ)
    (bad : Act (LLState (Fin (sectionsOf o.wing)) × List (PropSlot (Fin (sectionsOf o.wing)))) (Option Loads)) :
    World (o.backend p simps fuel bad) → List (SolveArgs (Fin (sectionsOf o.wing))) → Except PyErr (List Loads)
  | _, [] => .ok []
  | w, a :: rest =>
    match muSolve (B := o.backend p simps fuel bad) a.prop { w with aero := some a.aero, ctrl := a.ctrl } with
    | (.error e, _) => .error e
    | (.ok T, w') => (o.solves p simps fuel bad w' rest).map (T :: ·)

end Verif
