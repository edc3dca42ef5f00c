import Verif.Base.V3
import Verif.Base.Py
import Verif.Model.LLState
import Mathlib.Analysis.SpecialFunctions.Trigonometric.Basic

/-!
# Model of the aircraft description (`machup/geometry.py`)

An `Airplane` holds a dictionary of `Wing` objects; every `Wing` owns one or two `WingSegment` objects whose `_parent`
points to the plane or to another `Wing`.  Wing objects live in an append-only heap (`Plane.heap`, the index is the
object identity); the dictionary `Airplane._wings` maps names to identities in insertion order.  A wing that was
replaced in the dictionary stays in the heap because other wings may still point to it.
-/

namespace Verif
open V3

/-- `span_position` of a propeller airfoil: `"root"`, `"tip"`, … or a fraction of the radius (`geometry.py:1262`, `propmodel.py:98-118`) -/
inductive SpanPos
  | name (s : String)
  | frac (x : ℝ)

/-- The keyword arguments of `Wing.airfoil` / `Prop.airfoil` (`geometry.py:589-627`, `1069-1110`). -/
structure AirfoilProps where
  spanPosition : Option SpanPos := none
  al0 : Option ℝ := none
  cla : Option ℝ := none
  clMax : Option ℝ := none
  cml0 : Option ℝ := none
  cma : Option ℝ := none
  cd0 : Option ℝ := none
  cd1 : Option ℝ := none
  cd2 : Option ℝ := none
  /-- any further keyword -/
  other : Bool := false

/-- An `Airfoil` object (`geometry.py:1239-1283`). -/
structure Airfoil where
  name : String
  spanPosition : Option SpanPos
  /-- `alpha_L0` -/
  al0 : ℝ
  /-- `CL_alpha` -/
  cla : ℝ
  /-- `CL_max` -/
  clMax : ℝ
  /-- `Cm_L0` -/
  cml0 : ℝ
  /-- `Cm_alpha` -/
  cma : ℝ
  /-- `CD_0` -/
  cd0 : ℝ
  /-- `CD_L` -/
  cd1 : ℝ
  /-- `CD_L2` -/
  cd2 : ℝ

/-- Python truth value of the keyword dictionary. (`geometry.py:1260`) -/
def AirfoilProps.truthy (p : AirfoilProps) : Bool :=
  p.spanPosition.isSome || p.al0.isSome || p.cla.isSome || p.clMax.isSome || p.cml0.isSome || p.cma.isSome ||
    p.cd0.isSome || p.cd1.isSome || p.cd2.isSome || p.other

/-- `dict[key]` (for example `geometry.py:1263-1270`) -/
def getKey {α : Type*} : Option α → Except PyErr α
  | some a => .ok a
  | none => .error .key

/-- the default airfoil (`geometry.py:1273-1283`) -/
noncomputable def Airfoil.default (name : String) : Airfoil :=
  { name := name, spanPosition := none, al0 := -0.0369, cla := 6.2832, clMax := 1.4, cml0 := -0.0527, cma := -0.08
    cd0 := 0.0055, cd1 := -0.0045, cd2 := 0.01 }

/-- `Airfoil.__init__` (`geometry.py:1258-1283`). -/
noncomputable def mkAirfoil (name : String) (p : AirfoilProps) : Except PyErr Airfoil :=
  if p.truthy then do
    let al0 ← getKey p.al0
    let cla ← getKey p.cla
    let clMax ← getKey p.clMax
    let cml0 ← getKey p.cml0
    let cma ← getKey p.cma
    let cd0 ← getKey p.cd0
    let cd1 ← getKey p.cd1
    let cd2 ← getKey p.cd2
    return { name, spanPosition := p.spanPosition, al0, cla, clMax, cml0, cma, cd0, cd1, cd2 }
  else .ok (Airfoil.default name)

/-- The `mix` dictionary of a control surface; `other` are further entries. (`geometry.py:1408-1416`, `1454-1468`) -/
structure Mix where
  aileron : Option ℝ := none
  elevator : Option ℝ := none
  rudder : Option ℝ := none
  flap : Option ℝ := none
  /-- further entries (name, value) -/
  other : List (String × ℝ) := []

/-- `percent_chord`: a pair, or a single number (`geometry.py:1400-1405`). -/
inductive PctChord
  | pair (root tip : ℝ)
  | single (c : ℝ)

/-- The keyword arguments of `Wing.control_surface` (`geometry.py:629-667`). -/
structure CtrlSurfProps where
  percentSpan : Option (ℝ × ℝ) := none
  percentChord : Option PctChord := none
  mix : Option Mix := none
  /-- truth value of `sealed`, the keyword the constructor reads -/
  sealed : Option Bool := none
  /-- truth value of `is_sealed`, the keyword the documentation of `control_surface` names; nothing reads it -/
  isSealed : Option Bool := none
  other : Bool := false

/-- Python truth value of the keyword dictionary. (`geometry.py:1397`) -/
def CtrlSurfProps.truthy (p : CtrlSurfProps) : Bool :=
  p.percentSpan.isSome || p.percentChord.isSome || p.mix.isSome || p.sealed.isSome || p.isSealed.isSome || p.other

/-- A `ControlSurface` object (`geometry.py:1375-1416`).  `_mix` only ever has the four keys below. -/
structure CtrlSurf where
  spanRoot : ℝ := 0
  spanTip : ℝ := 1
  chordRoot : ℝ := 0
  chordTip : ℝ := 0
  sealed : Bool := true
  aileron : Option ℝ := none
  elevator : Option ℝ := none
  rudder : Option ℝ := none
  flap : Option ℝ := none

/-- `ControlSurface.__init__` (`geometry.py:1389-1416`). -/
noncomputable def mkCtrlSurf (p : CtrlSurfProps) : Except PyErr CtrlSurf :=
  if p.truthy then do
    let sp ← getKey p.percentSpan
    let ch ← getKey p.percentChord
    let m ← getKey p.mix
    let ch : ℝ × ℝ := match ch with
      | .pair a b => (a, b)
      | .single c => (c, c)
    return { spanRoot := sp.1, spanTip := sp.2, chordRoot := ch.1, chordTip := ch.2
             sealed := p.sealed.getD true
             aileron := m.aileron, elevator := m.elevator, rudder := m.rudder, flap := m.flap }
  else .ok {}

/-- side of a wing segment (`geometry.py:487-502`) -/
inductive Side
  | left
  | right
  deriving DecidableEq

/-- the string `"left"` / `"right"` (`geometry.py:487-502`) -/
def Side.str : Side → String
  | .left => "left"
  | .right => "right"

/-- `ControlSurface.get_control_mix` followed by `WingSegment.get_control_mix` (`geometry.py:1454-1470`, `1006-1012`):
(aileron, elevator, rudder, flap). -/
def CtrlSurf.mixFor (c : CtrlSurf) (side : Side) : ℝ × ℝ × ℝ × ℝ :=
  let a := c.aileron.map fun v => if side = .right then v else -v
  let r := c.rudder.map fun v => if side = .right then v else -v
  (a.getD 0, c.elevator.getD 0, r.getD 0, c.flap.getD 0)

/-- The dimension keywords of `add_wing` (`geometry.py:719-747`). -/
structure WingDims where
  position : Option V3 := none
  /-- truth value of `is_main` -/
  isMain : Option Bool := none
  yoffset : Option ℝ := none
  semispan : Option ℝ := none
  rootChord : Option ℝ := none
  tipChord : Option ℝ := none
  sweep : Option ℝ := none
  dihedral : Option ℝ := none
  mountAngle : Option ℝ := none
  washout : Option ℝ := none
  grid : Option ℕ := none

/-- `WingSegment._parent`: `None`, the plane, or a wing object. (`geometry.py:750-767`) -/
inductive Parent
  | none
  | plane
  | wing (id : ℕ)
  deriving DecidableEq

/-- A `WingSegment` object (`geometry.py:670-717`). -/
structure Seg where
  name : String
  side : Side
  parent : Parent
  /-- `_connect_at` -/
  connectAt : String
  isMain : Bool
  /-- `_delta_pos` -/
  dpos : V3
  yoffset : ℝ
  /-- semispan -/
  span : ℝ
  rootChord : ℝ
  tipChord : ℝ
  /-- degrees -/
  sweep : ℝ
  /-- degrees -/
  dihedral : ℝ
  /-- degrees -/
  mount : ℝ
  /-- degrees -/
  washout : ℝ
  root : Airfoil
  tip : Airfoil
  cs : CtrlSurf
  /-- `_num_sections` -/
  n : ℕ

/-- `WingSegment.__init__` and `_unpack` (`geometry.py:696-747`). -/
noncomputable def mkSeg (name : String) (side : Side) (d : WingDims) : Seg :=
  let rc := d.rootChord.getD 1
  { name, side, parent := .none, connectAt := "tip"
    isMain := d.isMain.getD true
    dpos := d.position.getD 0
    yoffset := d.yoffset.getD 0
    span := d.semispan.getD 4
    rootChord := rc
    tipChord := d.tipChord.getD rc
    sweep := d.sweep.getD 0
    dihedral := d.dihedral.getD 0
    mount := d.mountAngle.getD 0
    washout := d.washout.getD 0
    root := Airfoil.default "NACA2412"
    tip := Airfoil.default "NACA2412"
    cs := {}
    n := d.grid.getD 40 }

/-- A `Wing` object: `"both"`, `"left"` or `"right"` with the segments it owns (`geometry.py:480-502`). -/
inductive Wing
  | both (l r : Seg)
  | onlyLeft (l : Seg)
  | onlyRight (r : Seg)

/-- `Wing.__init__` (`geometry.py:480-502`). -/
noncomputable def mkWing (name side : String) (d : WingDims) : Except PyErr Wing :=
  if side = "both" then .ok (.both (mkSeg ("left_" ++ name) .left d) (mkSeg ("right_" ++ name) .right d))
  else if side = "right" then .ok (.onlyRight (mkSeg ("right_" ++ name) .right d))
  else if side = "left" then .ok (.onlyLeft (mkSeg ("left_" ++ name) .left d))
  else .error .runtime

namespace Wing

/-- `_left_segment` (`geometry.py:483-500`) -/
def leftSeg : Wing → Option Seg
  | both l _ => some l
  | onlyLeft l => some l
  | onlyRight _ => none

/-- `_right_segment` (`geometry.py:484-496`) -/
def rightSeg : Wing → Option Seg
  | both _ r => some r
  | onlyLeft _ => none
  | onlyRight r => some r

/-- `Wing.get_num_sections` (`geometry.py:513-522`). -/
def numSections : Wing → ℕ
  | both l r => 0 + l.n + r.n
  | onlyLeft l => 0 + l.n
  | onlyRight r => 0 + r.n

/-- `Wing.get_wingsegments` (`geometry.py:533-538`). -/
def segments : Wing → List Seg
  | both l r => [l, r]
  | onlyLeft l => [l]
  | onlyRight r => [r]

/-- applies a `WingSegment` method to the left and the right segment, as `Wing.connect_to`, `Wing.airfoil` and
`Wing.control_surface` do (`geometry.py:559-565`, `619-625`, `659-665`) -/
def mapSegs (f : Seg → Seg) : Wing → Wing
  | both l r => both (f l) (f r)
  | onlyLeft l => onlyLeft (f l)
  | onlyRight r => onlyRight (f r)

end Wing

/-- `WingSegment.connect_to` (`geometry.py:766-767`). -/
def Seg.connectTo (s : Seg) (p : Parent) (location : String) : Seg :=
  { s with parent := p, connectAt := s.side.str ++ "_" ++ location }

/-- `WingSegment.airfoil` (`geometry.py:779-785`). -/
def Seg.setAirfoil (s : Seg) (e : String) (a : Airfoil) : Seg :=
  if e = "both" then { s with root := a, tip := a }
  else if e = "root" then { s with root := a }
  else if e = "tip" then { s with tip := a }
  else s

/-- `pitch_info` / `chord_info` of a propeller; read in `propmodel.py:164-223`. -/
structure PropTable where
  /-- `"type"` -/
  type : Option String := none
  value : Option ℝ := none
  filename : Option String := none
  increment : Option ℝ := none
  root : Option ℝ := none
  tip : Option ℝ := none

/-- `electric_motor` dictionary of a propeller (`propmodel.py:227-237`). -/
structure MotorInfo where
  /-- truth value of `has_motor` -/
  hasMotor : Option Bool := none
  kv : Option ℝ := none
  rm : Option ℝ := none
  io : Option ℝ := none
  gr : Option ℝ := none
  rb : Option ℝ := none
  eo : Option ℝ := none
  rc : Option ℝ := none

/-- `rot_dir` argument of a propeller: a string or a number (`geometry.py:1052-1067`, `1178-1192`) -/
inductive RotArg
  | str (s : String)
  | num (x : ℝ)

/-- The keywords of `add_prop` (`geometry.py:1052-1067`). -/
structure PropDims where
  position : Option V3 := none
  orientation : Option (ℝ × ℝ) := none
  nodes : Option ℕ := none
  diameter : Option ℝ := none
  hubDiameter : Option ℝ := none
  blades : Option ℕ := none
  rotDir : Option RotArg := none
  pitch : Option PropTable := none
  chord : Option PropTable := none
  motor : Option MotorInfo := none

/-- A `Prop` object (`geometry.py:1025-1067`). -/
structure PropGeom where
  name : String
  position : V3
  /-- (elevation, heading) in degrees -/
  orientation : ℝ × ℝ
  nodes : ℕ
  diameter : ℝ
  hubDiameter : ℝ
  blades : ℕ
  rotDir : RotArg
  pitch : PropTable
  chord : PropTable
  motor : MotorInfo
  /-- `_airfoils`: ordered dictionary name → airfoil -/
  airfoils : List (String × Airfoil)

/-- `Prop.__init__` (`geometry.py:1046-1067`). -/
noncomputable def mkProp (name : String) (d : PropDims) : PropGeom :=
  let dia := d.diameter.getD 1
  { name
    position := d.position.getD 0
    orientation := d.orientation.getD (0, 0)
    nodes := d.nodes.getD 100
    diameter := dia
    hubDiameter := d.hubDiameter.getD (0.1 * dia)
    blades := d.blades.getD 2
    rotDir := d.rotDir.getD (.num 1)
    pitch := d.pitch.getD { type := some "default" }
    chord := d.chord.getD { type := some "default" }
    motor := d.motor.getD {}
    airfoils := [] }

/-- `d[key] = value` on an insertion-ordered dictionary (Python ≥ 3.7): an existing key keeps its place. (for example `geometry.py:302`, `344`) -/
def dictSet {α : Type*} (d : List (String × α)) (k : String) (v : α) : List (String × α) :=
  match d with
  | [] => [(k, v)]
  | (k', v') :: t => if k' = k then (k', v) :: t else (k', v') :: dictSet t k v

/-- `d[key]` (for example `geometry.py:308`) -/
def dictGet {α : Type*} (d : List (String × α)) (k : String) : Option α :=
  match d with
  | [] => none
  | (k', v') :: t => if k' = k then some v' else dictGet t k

/-- An `Airplane` object (`geometry.py:64-75`). -/
structure Plane where
  name : String := ""
  /-- all `Wing` objects ever created, by identity -/
  heap : List Wing := []
  /-- `_wings` -/
  wings : List (String × ℕ) := []
  /-- `_props` -/
  props : List (String × PropGeom) := []
  /-- `_cg_loc` -/
  cg : V3 := 0
  /-- `_long_ref` -/
  longRef : Option ℝ := none
  /-- `_lat_ref` -/
  latRef : Option ℝ := none
  /-- `_position` -/
  position : Option V3 := none
  /-- `_units`: outer `none` = the attribute does not exist -/
  units : Option (Option String) := none

namespace Plane

/-- the `Wing` objects in the dictionary, in insertion order (`self._wings.values()`) (`geometry.py:247-273`) -/
def wingList (p : Plane) : List Wing := p.wings.filterMap fun kv => p.heap[kv.2]?

/-- `Airplane.get_num_sections` (`geometry.py:256-259`). -/
def numSections (p : Plane) : ℕ := p.wingList.foldl (fun t w => t + w.numSections) 0

/-- `Airplane.get_wingsegments` (`geometry.py:270-273`). -/
def segments (p : Plane) : List Seg := p.wingList.foldl (fun l w => l ++ w.segments) []

/-- `add_wing(name, connect_to=(parent, location), side=side, **dims)` (`geometry.py:289-314`).
Returns the identity of the new wing.  The wing is in the dictionary before the parent is looked up: after a
`KeyError` it stays there, unconnected. -/
noncomputable def addWing (p : Plane) (name : String) (parent : Option String) (location : String) (side : String)
    (d : WingDims) : Except PyErr ℕ × Plane :=
  match mkWing name side d with
  | .error e => (.error e, p)
  | .ok w =>
    let id := p.heap.length
    let p1 := { p with heap := p.heap ++ [w], wings := dictSet p.wings name id }
    let target : Except PyErr Parent := match parent with
      | none => .ok .plane
      | some "" => .ok .plane
      | some q => match dictGet p1.wings q with
        | some i => .ok (.wing i)
        | none => .error .key
    match target with
    | .error e => (.error e, p1)
    | .ok t => (.ok id, { p1 with heap := p.heap ++ [w.mapSegs (·.connectTo t location)] })

/-- `wing.airfoil(name, end, **properties)` on the wing object `id` (`geometry.py:589-627`). -/
noncomputable def wingAirfoil (p : Plane) (id : ℕ) (name e : String) (props : AirfoilProps) : Except PyErr Unit × Plane :=
  match mkAirfoil name props with
  | .error er => (.error er, p)
  | .ok a => (.ok (), { p with heap := p.heap.modify id (·.mapSegs (·.setAirfoil e a)) })

/-- `wing.control_surface(**properties)` on the wing object `id` (`geometry.py:629-667`). -/
noncomputable def wingCtrl (p : Plane) (id : ℕ) (props : CtrlSurfProps) : Except PyErr Unit × Plane :=
  match mkCtrlSurf props with
  | .error er => (.error er, p)
  | .ok c => (.ok (), { p with heap := p.heap.modify id (·.mapSegs fun s => { s with cs := c }) })

/-- `add_prop(name, **dims)` (`geometry.py:316-346`). -/
noncomputable def addProp (p : Plane) (name : String) (d : PropDims) : Plane :=
  { p with props := dictSet p.props name (mkProp name d) }

/-- `prop.airfoil(airfoil_name, **properties)` (`geometry.py:1069-1110`) on the propeller currently stored under `name`.
(The code calls it on the object `add_prop` returned; a propeller object that was replaced in the dictionary is out of
reach of every analysis and is not kept here.) -/
noncomputable def propAirfoil (p : Plane) (name afName : String) (props : AirfoilProps) : Except PyErr Unit × Plane :=
  match mkAirfoil afName props with
  | .error er => (.error er, p)
  | .ok a => match dictGet p.props name with
    | none => (.error .key, p)
    | some q => (.ok (), { p with props := dictSet p.props name { q with airfoils := dictSet q.airfoils afName a } })

open Classical in
/-- one coordinate of `cg_location`: `if x_coord: self._cg_loc[0] = x_coord` (`geometry.py:386-391`) -/
noncomputable def setCoord (old : ℝ) (new : Option ℝ) : ℝ :=
  match new with
  | none => old
  | some x => if x = 0 then old else x

/-- `cg_location(x, y, z)` (`geometry.py:386-391`): `None` and `0` are both falsy. -/
noncomputable def cgLocation (p : Plane) (x y z : Option ℝ) : Plane :=
  { p with cg := ⟨setCoord p.cg.x x, setCoord p.cg.y y, setCoord p.cg.z z⟩ }

/-- `set_reference_lengths` (`geometry.py:405-406`). -/
def setRefLengths (p : Plane) (lateral longitudinal : Option ℝ) : Plane :=
  { p with latRef := lateral, longRef := longitudinal }

/-- `Airplane.get_position` (`geometry.py:427-430`). -/
def getPosition (p : Plane) : V3 := p.position.getD 0

/-- `get_units` (`geometry.py:371`). -/
def getUnits (p : Plane) : Except PyErr (Option String) :=
  match p.units with
  | none => .error .attribute
  | some u => .ok u

end Plane

/-- which end of a segment is asked for (`geometry.py:567-587`, `830-880`) -/
inductive TipAt
  | leftTip
  | rightTip
  deriving DecidableEq

/-- interpretation of the `at` / `side` string by `WingSegment.get_position` and `Wing.get_position`
(`geometry.py:582-587`, `847-880`) -/
def TipAt.ofStr (s : String) : Except PyErr TipAt :=
  if s = "left_tip" then .ok .leftTip
  else if s = "right_tip" then .ok .rightTip
  else .error .runtime

open Classical in
/-- Offset of a tip from the parent position, the first part of `WingSegment.get_position` (`geometry.py:847-876`).
`none`: `cos(sweep) = 0`, where the code divides by zero. -/
noncomputable def Seg.tipOffset (s : Seg) (t : TipAt) : Option V3 :=
  let sw := s.sweep * Real.pi / 180
  let di := s.dihedral * Real.pi / 180
  match t, s.side with
  | .leftTip, .left =>
    if Real.cos sw = 0 then none
    else some ⟨s.dpos.x - s.span * Real.sin sw / Real.cos sw,
      s.dpos.y - s.span * Real.cos di - s.yoffset,
      s.dpos.z - s.span * Real.sin di⟩
  | .leftTip, .right => some ⟨s.dpos.x, s.dpos.y + s.yoffset, s.dpos.z⟩
  | .rightTip, .right =>
    if Real.cos sw = 0 then none
    else some ⟨s.dpos.x - s.span * Real.sin sw / Real.cos sw,
      s.dpos.y + s.span * Real.cos di + s.yoffset,
      s.dpos.z - s.span * Real.sin di⟩
  | .rightTip, .left => some ⟨s.dpos.x, s.dpos.y - s.yoffset, s.dpos.z⟩

/-- `own + parent_position`, with `nan` if the own part is not finite (`geometry.py:862`, `878`) -/
def addOff (own : Option V3) (par : V3) : Except PyErr V3 :=
  match own with
  | some o => .ok (o + par)
  | none => .error .nonfinite

/-- `WingSegment.get_position(t)` (`geometry.py:830-885`, with `_get_parent_position`) together with `Wing.get_position` (`567-587`) and
`Airplane.get_position`; mutual recursion through the `_parent` pointers, on fuel: `.recursion` means that the
recursion is deeper than `fuel`.  (Python's own recursion limit is not modelled.) -/
noncomputable def segPos (p : Plane) : ℕ → Seg → TipAt → Except PyErr V3
  | 0, _, _ => .error .recursion
  | fuel + 1, s, t =>
    let par : Except PyErr V3 := match s.parent with
      | .none => .ok 0
      | .plane => .ok p.getPosition
      | .wing id => match p.heap[id]? with
        | none => .error .attribute
        | some w => match TipAt.ofStr s.connectAt with
          | .error e => .error e
          | .ok .leftTip => match w.leftSeg with
            | some q => segPos p fuel q .leftTip
            | none => .error .attribute
          | .ok .rightTip => match w.rightSeg with
            | some q => segPos p fuel q .rightTip
            | none => .error .attribute
    match par with
    | .error e => .error e
    | .ok v => addOff (s.tipOffset t) v

/-- A call of the plane-building API. (`geometry.py:289-406`, `589-668`, `1069-1110`) -/
inductive PlaneOp
  | addWing (name : String) (parent : Option String) (location side : String) (d : WingDims)
  | airfoil (id : ℕ) (name e : String) (props : AirfoilProps)
  | controlSurface (id : ℕ) (props : CtrlSurfProps)
  | addProp (name : String) (d : PropDims)
  | propAirfoil (name afName : String) (props : AirfoilProps)
  | cgLocation (x y z : Option ℝ)
  | setRefLengths (lateral longitudinal : Option ℝ)

/-- Effect of one call (the caller catches exceptions). (`geometry.py:289-406`, `589-668`, `1069-1110`) -/
noncomputable def PlaneOp.run (p : Plane) : PlaneOp → Plane
  | .addWing name parent location side d => (p.addWing name parent location side d).2
  | .airfoil id name e props => (p.wingAirfoil id name e props).2
  | .controlSurface id props => (p.wingCtrl id props).2
  | .addProp name d => p.addProp name d
  | .propAirfoil name af props => (p.propAirfoil name af props).2
  | .cgLocation x y z => p.cgLocation x y z
  | .setRefLengths a b => p.setRefLengths a b

/-- The plane after a sequence of calls. (the calls of `geometry.py:289-406`, `589-668`, `1069-1110` one after the other) -/
noncomputable def runOps (p : Plane) (ops : List PlaneOp) : Plane := ops.foldl PlaneOp.run p

/-- `Airplane(name, position)` (`geometry.py:64-72`). -/
def newPlane (name : String) (position : Option V3) : Plane := { name, position }

end Verif
