import Verif.Model.MUInit
import Verif.Model.PropGeom

/-!
# What constructing a `MachUp` object does to the `Airplane`

`PropModel` adds the default airfoil to a propeller that has none (`propmodel.py:78-80`).  The propeller object belongs to
the `Airplane`, so the addition stays there.
-/

namespace Verif
open V3

/-- a propeller after `PropModel._calc_coefficients` (`propmodel.py:78-80`) -/
noncomputable def PropGeom.equipped (q : PropGeom) : PropGeom :=
  if q.airfoils = [] then { q with airfoils := [("NACA2412", Airfoil.default "NACA2412")] } else q

open Classical in
/-- a propeller after `PropModel.__init__` has raised: with a diameter of zero it ends in `_calc_spacing`
(`propmodel.py:28`), all other errors come after the airfoils -/
noncomputable def PropGeom.afterError (q : PropGeom) : PropGeom := if q.diameter = 0 then q else q.equipped

variable {PM : Type}

/-- the propellers after `PropsSolver.__init__` (`propssolver.py:11-12`), which ends at the first exception -/
noncomputable def propsAfter (mk : PropGeom → Except PyErr PM) : List (String × PropGeom) → List (String × PropGeom)
  | [] => []
  | (k, q) :: t => match mk q with
    | .ok _ => (k, q.equipped) :: propsAfter mk t
    | .error _ => (k, q.afterError) :: t

/-- the `Airplane` after `MachUp(inputAirplane=p)` (`MU.py:62-99`), successful or not -/
noncomputable def planeAfter (mkPM : PropGeom → V3 → Option String → Option (List V3) → Except PyErr PM) (p : Plane) : Plane :=
  match mkWingPart p, p.getUnits with
  | .ok w, .ok u => { p with props := propsAfter (fun q => mkPM q p.cg u (w.map fun w => w.grid.data.map (·.rcp))) p.props }
  | _, _ => p

end Verif
