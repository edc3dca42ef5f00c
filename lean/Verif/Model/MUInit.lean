import Verif.Model.Grid

/-!
# Model of `MachUp.__init__` (`MU.py:62-99`) and `PropsSolver.__init__` (`propssolver.py:7-14`)

The constructor of `PropModel` is a parameter here.
Simplification: a division by zero (`nan`, `inf` or `ZeroDivisionError`, depending on the number types) is `.nonfinite`.
-/

namespace Verif
open V3

/-- the wing part of a `MachUp` object (`MU.py:71-95`) -/
structure WingPart where
  /-- `self.myllmodel._grid` -/
  grid : Grid
  /-- `self.lat_ref` -/
  lat : ℝ
  /-- `self.long_ref` -/
  long : ℝ

/-- `self.Sw` (`MU.py:73`) -/
def WingPart.Sw (w : WingPart) : ℝ := w.grid.refArea

/-- a `MachUp` object; `none` = the attribute does not exist (`MU.py:62-99`) -/
structure MachUpObj (PM : Type) where
  plane : Plane
  wing : Option WingPart
  /-- `self.myprops._prop_models` -/
  props : Option (List (String × PM))

open Classical in
/-- the largest `2*seg.get_span()` (`MU.py:81-86`) -/
noncomputable def inferLat (segs : List Seg) : ℝ :=
  segs.foldl (fun m s => if 2 * s.span > m then 2 * s.span else m) 0

open Classical in
/-- `a/b` (`MU.py:87`, `90`, `93`) -/
noncomputable def safeDiv (a b : ℝ) : Except PyErr ℝ := if b = 0 then .error .nonfinite else .ok (a / b)

/-- the reference lengths (`MU.py:74-75`, `77-93`), as (lateral, longitudinal) -/
noncomputable def refLengths (p : Plane) (Sw : ℝ) : Except PyErr (ℝ × ℝ) :=
  match p.latRef, p.longRef with
  | some lat, some long => .ok (lat, long)
  | none, none => do
    let lat := inferLat p.segments
    let long ← safeDiv Sw lat
    return (lat, long)
  | some lat, none => do
    let long ← safeDiv Sw lat
    return (lat, long)
  | none, some long => do
    let lat ← safeDiv Sw long
    return (lat, long)

variable {PM : Type}

/-- `PropsSolver.__init__` (`propssolver.py:7-14`): `plane.get_units()` is evaluated for every propeller. -/
def mkPropsSolver (mkPM : PropGeom → V3 → Option String → Option (List V3) → Except PyErr PM) (p : Plane)
    (pts : Option (List V3)) : Except PyErr (List (String × PM)) :=
  (p.props.map Prod.snd).foldlM (fun d q => do
    let u ← p.getUnits
    let m ← mkPM q p.cg u pts
    return dictSet d q.name m) []

/-- the part of `MachUp.__init__` for planes with wings (`MU.py:71-95`) -/
noncomputable def mkWingPart (p : Plane) : Except PyErr (Option WingPart) :=
  if p.wings = [] then .ok none
  else do
    let g ← mkGrid p true
    let (lat, long) ← refLengths p g.refArea
    return some ⟨g, lat, long⟩

/-- `MachUp.__init__` (`MU.py:62-99`) for an `Airplane` object -/
noncomputable def mkMachUp (mkPM : PropGeom → V3 → Option String → Option (List V3) → Except PyErr PM) (p : Plane) :
    Except PyErr (MachUpObj PM) := do
  let w ← mkWingPart p
  let pts := w.map fun w => w.grid.data.map (·.rcp)
  let ps ← if p.props = [] then .ok none else (mkPropsSolver mkPM p pts).map some
  return ⟨p, w, ps⟩

end Verif
