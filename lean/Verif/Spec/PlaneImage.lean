import Verif.Spec.Geometry

/-!
# Specification vocabulary: the same aircraft built larger, displaced or mirrored

What has to be changed in the calls that build an aircraft to get the same aircraft with all lengths multiplied by `k`,
or its mirror image.
-/

namespace Verif
open V3

/-- All lengths in the keywords of `add_wing` multiplied by `k` (angles, number of sections and `is_main` unchanged).
The semispan and the root chord have the defaults 4 and 1, which are lengths too. -/
noncomputable def WingDims.enlarge (k : ℝ) (d : WingDims) : WingDims :=
  { d with
    position := d.position.map (k • ·)
    yoffset := d.yoffset.map (k * ·)
    semispan := some (k * d.semispan.getD 4)
    rootChord := some (k * d.rootChord.getD 1)
    tipChord := d.tipChord.map (k * ·) }

/-- All lengths in the keywords of `add_prop` multiplied by `k`: position, diameters (the diameter has the default 1, the hub diameter
a tenth of the diameter), pitch lengths and chord lengths.  Angles, ratios, tables and numbers of blades and nodes are unchanged. -/
noncomputable def PropDims.enlarge (k : ℝ) (d : PropDims) : PropDims :=
  { d with
    position := d.position.map (k • ·)
    diameter := some (k * d.diameter.getD 1)
    hubDiameter := d.hubDiameter.map (k * ·)
    pitch := d.pitch.map fun t => { t with value := if t.type = some "value" then t.value.map (k * ·) else t.value }
    chord := d.chord.map fun t => { t with root := t.root.map (k * ·), tip := t.tip.map (k * ·) } }

/-- The geometrically similar propeller, `k` times as large: all lengths (diameters, position, pitch length, chords given as
lengths) multiplied by `k`; numbers of blades and nodes, angles, ratios, airfoils and tables unchanged. -/
noncomputable def PropGeom.scale (k : ℝ) (q : PropGeom) : PropGeom :=
  { q with
    position := k • q.position
    diameter := k * q.diameter
    hubDiameter := k * q.hubDiameter
    pitch := { q.pitch with value := if q.pitch.type = some "value" then q.pitch.value.map (k * ·) else q.pitch.value }
    chord := { q.chord with root := q.chord.root.map (k * ·), tip := q.chord.tip.map (k * ·) } }

/-- All lengths in a call of the plane-building API multiplied by `k`. -/
noncomputable def PlaneOp.enlarge (k : ℝ) : PlaneOp → PlaneOp
  | .addWing name parent location side d => .addWing name parent location side (d.enlarge k)
  | .addProp name d => .addProp name (d.enlarge k)
  | .cgLocation x y z => .cgLocation (x.map (k * ·)) (y.map (k * ·)) (z.map (k * ·))
  | .setRefLengths a b => .setRefLengths (a.map (k * ·)) (b.map (k * ·))
  | op => op

/-- The call that places a propeller `δ` further (the default position is the origin); the other calls are the same. -/
noncomputable def PlaneOp.moveProp (δ : V3) : PlaneOp → PlaneOp
  | .addProp name d => .addProp name { d with position := some (d.position.getD 0 + δ) }
  | op => op

/-- `"left"` and `"right"` exchanged. -/
def mirSide (side : String) : String := if side = "left" then "right" else if side = "right" then "left" else side

open Classical in
/-- The other direction of rotation.  (Everything but `"CW"`, `"cw"` and `-1` means counter-clockwise, C98.) -/
noncomputable def RotArg.opposite : RotArg → RotArg
  | .str s => if s = "CW" ∨ s = "cw" then .str "CCW" else .str "CW"
  | .num x => if x = -1 then .num 1 else .num (-1)

/-- The keywords of `add_prop` for the mirror image of a propeller: on the other side of the aircraft, heading the other
way, turning the other way (the default is counter-clockwise). -/
noncomputable def PropDims.mirror (d : PropDims) : PropDims :=
  { d with
    position := d.position.map mir
    orientation := d.orientation.map fun o => (o.1, -o.2)
    rotDir := some ((d.rotDir.getD (.num 1)).opposite) }

/-- The mirror image of a propeller. -/
noncomputable def PropGeom.mirror (q : PropGeom) : PropGeom :=
  { q with position := mir q.position, orientation := (q.orientation.1, -q.orientation.2), rotDir := q.rotDir.opposite }

/-- The mirror image of a call of the plane-building API: left and right wings are exchanged, lateral positions change
sign.  Control surfaces keep their mixing: the mixing rules for `"aileron"` and `"rudder"` depend on the side.
Propellers turn the other way. -/
noncomputable def PlaneOp.mirror : PlaneOp → PlaneOp
  | .addWing name parent location side d =>
    .addWing name parent location (mirSide side) { d with position := d.position.map mir }
  | .addProp name d => .addProp name d.mirror
  | .cgLocation x y z => .cgLocation x (y.map (- ·)) z
  | op => op

/-- The same call on other wing objects: `π` tells which object takes the place of which. -/
def PlaneOp.onObjects (π : ℕ → ℕ) : PlaneOp → PlaneOp
  | .airfoil id name e props => .airfoil (π id) name e props
  | .controlSurface id props => .controlSurface (π id) props
  | op => op

/-- Every call that gets so far as to create a wing also connects it: no `add_wing` call raises an exception after the
wing was entered in the dictionary. -/
def AllConnected (p : Plane) : Prop :=
  ∀ (b : ℕ) (w : Wing) (s : Seg), p.heap[b]? = some w → s ∈ w.segments → s.parent ≠ .none

end Verif
