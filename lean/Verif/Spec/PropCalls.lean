import Verif.Spec.WingCalls

/-!
# Specification vocabulary: what the calls made for a propeller say
-/

namespace Verif
open V3

/-- A propeller added with the keywords `d`.  Unstated keywords: at the origin, pointing forward, 100 radial nodes, two
blades, diameter 1, a hub of a tenth of the diameter, counter-clockwise, default pitch and chord, no motor. -/
structure PropGeom.Dims (q : PropGeom) (name : String) (d : PropDims) : Prop where
  name : q.name = name
  position : q.position = d.position.getD 0
  orientation : q.orientation = d.orientation.getD (0, 0)
  nodes : q.nodes = d.nodes.getD 100
  diameter : q.diameter = d.diameter.getD 1
  hub : q.hubDiameter = d.hubDiameter.getD (d.diameter.getD 1 / 10)
  blades : q.blades = d.blades.getD 2
  rotDir : q.rotDir = d.rotDir.getD (.num 1)
  pitch : q.pitch = d.pitch.getD { type := some "default" }
  chord : q.chord = d.chord.getD { type := some "default" }
  motor : q.motor = d.motor.getD {}

/-- `op` adds a propeller called `name`. -/
def AddsProp (name : String) (op : PlaneOp) : Prop := ∃ d, op = .addProp name d

/-- The names `add_prop` is called with, call by call. -/
def propNames (ops : List PlaneOp) : List String :=
  ops.filterMap fun op => match op with
    | .addProp name _ => some name
    | _ => none

/-- `op` is a call of `airfoil`, with acceptable keywords, for the airfoil `af` of the propeller `name`. -/
def SetsPropAirfoil (name af : String) (op : PlaneOp) : Prop :=
  ∃ props, op = .propAirfoil name af props ∧ props.Complete

end Verif
