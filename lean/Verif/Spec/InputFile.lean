import Verif.Model.InputFile

/-!
# Specification vocabulary: what an input file describes, and the API calls that say the same
-/

namespace Verif
open V3

namespace Json

/-- The value of a key. -/
def field (j : Json) (k : String) : Option Json :=
  match j with
  | .obj kvs => dictGet kvs k
  | _ => none

/-- Key `k` holds the number `x`. -/
def Num (j : Json) (k : String) (x : ℝ) : Prop := j.field k = some (.num x) ∨ ∃ n : ℕ, j.field k = some (.nat n) ∧ x = n

/-- Key `k` holds the number `x`, or `null` for `none`. -/
def OptNum (j : Json) (k : String) (x : Option ℝ) : Prop :=
  (x = none ∧ j.field k = some .null) ∨ ∃ y, x = some y ∧ j.Num k y

/-- Key `k` holds the number `x`, or is absent for `none`. -/
def MayNum (j : Json) (k : String) (x : Option ℝ) : Prop := (x = none ∧ j.field k = none) ∨ ∃ y, x = some y ∧ j.Num k y

/-- Key `k` holds the string `x`, or is absent for `none`. -/
def MayStr (j : Json) (k : String) (x : Option String) : Prop :=
  (x = none ∧ j.field k = none) ∨ ∃ y, x = some y ∧ j.field k = some (.str y)

end Json

/-- The airfoil data of a file. -/
structure FileAirfoil where
  name : String
  al0 : ℝ
  cla : ℝ
  cml0 : ℝ
  cma : ℝ
  cd0 : ℝ
  cd1 : ℝ
  cd2 : ℝ
  clMax : ℝ

/-- The control-surface data of a file. -/
structure FileControl where
  spanRoot : ℝ
  spanTip : ℝ
  chordRoot : ℝ
  chordTip : ℝ
  aileron : Option ℝ
  elevator : Option ℝ
  rudder : Option ℝ
  flap : Option ℝ
  sealed : Bool

/-- One wing of a file. -/
structure FileWing where
  name : String
  id : ℕ
  parentId : ℕ
  location : String
  side : String
  dx : ℝ
  dy : ℝ
  dz : ℝ
  yoffset : ℝ
  isMain : Bool
  semispan : ℝ
  sweep : ℝ
  dihedral : ℝ
  mount : ℝ
  washout : ℝ
  rootChord : ℝ
  tipChord : ℝ
  grid : ℕ
  airfoils : List FileAirfoil
  control : Option FileControl

/-- One propeller of a file. -/
structure FileProp where
  name : String
  dx : ℝ
  dy : ℝ
  dz : ℝ
  elevation : ℝ
  heading : ℝ
  nodes : ℕ
  diameter : ℝ
  hub : ℝ
  blades : ℕ
  rot : RotArg
  pitch : PropTable
  chord : PropTable
  motor : MotorInfo
  airfoils : List FileAirfoil

/-- Everything a file describes. -/
structure FileDesc where
  name : String
  cgx : Option ℝ
  cgy : Option ℝ
  cgz : Option ℝ
  longRef : Option ℝ
  latRef : Option ℝ
  units : Option String
  wings : List FileWing
  props : List FileProp

/-! ### The schema -/

/-- the `properties` object of an airfoil -/
structure AirfoilIn (j : Json) (a : FileAirfoil) : Prop where
  props : ∃ p, j.field "properties" = some p ∧ p.Num "alpha_L0" a.al0 ∧ p.Num "CL_alpha" a.cla ∧ p.Num "Cm_L0" a.cml0 ∧
    p.Num "Cm_alpha" a.cma ∧ p.Num "CD0" a.cd0 ∧ p.Num "CD0_L" a.cd1 ∧ p.Num "CD0_L2" a.cd2 ∧ p.Num "CL_max" a.clMax

/-- an object whose entries are the airfoils `l`, in this order -/
def AirfoilsIn (j : Json) (l : List FileAirfoil) : Prop :=
  ∃ kvs, j.field "airfoils" = some (.obj kvs) ∧ List.Forall₂ (fun kv a => kv.1 = a.name ∧ AirfoilIn kv.2 a) kvs l

/-- the values with which `control` says that a wing has no control surface: `{}`, and whatever else counts as false in Python -/
inductive NoControl : Json → Prop
  | obj : NoControl (.obj [])
  | arr : NoControl (.arr [])
  | null : NoControl .null
  | bool : NoControl (.bool false)
  | str : NoControl (.str "")
  | nat : NoControl (.nat 0)
  | num : NoControl (.num 0)

/-- the `control` object of a wing -/
def ControlIn (j : Json) : Option FileControl → Prop
  | none => ∃ v, j.field "control" = some v ∧ NoControl v
  | some c => ∃ o m kvs, j.field "control" = some o ∧ o.Num "span_root" c.spanRoot ∧ o.Num "span_tip" c.spanTip ∧
      o.Num "chord_root" c.chordRoot ∧ o.Num "chord_tip" c.chordTip ∧ o.field "is_sealed" = some (.bool c.sealed) ∧
      o.field "mix" = some m ∧ m = .obj kvs ∧ m.MayNum "aileron" c.aileron ∧ m.MayNum "elevator" c.elevator ∧
      m.MayNum "rudder" c.rudder ∧ m.MayNum "flap" c.flap

/-- the object of one wing -/
structure WingIn (j : Json) (w : FileWing) : Prop where
  id : j.field "ID" = some (.nat w.id)
  connect : ∃ c, j.field "connect" = some c ∧ c.field "ID" = some (.nat w.parentId) ∧
    c.field "location" = some (.str w.location) ∧ c.Num "dx" w.dx ∧ c.Num "dy" w.dy ∧ c.Num "dz" w.dz ∧
    c.Num "yoffset" w.yoffset
  side : j.field "side" = some (.str w.side)
  isMain : j.field "is_main" = some (.bool w.isMain)
  span : j.Num "span" w.semispan
  sweep : j.Num "sweep" w.sweep
  dihedral : j.Num "dihedral" w.dihedral
  mount : j.Num "mounting_angle" w.mount
  washout : j.Num "washout" w.washout
  rootChord : j.Num "root_chord" w.rootChord
  tipChord : j.Num "tip_chord" w.tipChord
  grid : j.field "grid" = some (.nat w.grid)
  airfoils : AirfoilsIn j w.airfoils ∧ w.airfoils ≠ []
  control : ControlIn j w.control

/-- a `pitch` or `chord` object -/
def TableIn (j : Json) (t : PropTable) : Prop :=
  ∃ kvs, j = .obj kvs ∧ j.MayStr "type" t.type ∧ j.MayNum "value" t.value ∧ j.MayStr "filename" t.filename ∧
    j.MayNum "pitch_increment" t.increment ∧ j.MayNum "root" t.root ∧ j.MayNum "tip" t.tip

/-- the `electric_motor` object, which may be absent -/
def MotorIn (j : Option Json) (t : MotorInfo) : Prop :=
  (j = none ∧ t = {}) ∨ ∃ o kvs, j = some o ∧ o = .obj kvs ∧
    ((t.hasMotor = none ∧ o.field "has_motor" = none) ∨ ∃ b, t.hasMotor = some b ∧ o.field "has_motor" = some (.bool b)) ∧
    o.MayNum "motor_kv" t.kv ∧ o.MayNum "motor_resistance" t.rm ∧ o.MayNum "motor_no_load_current" t.io ∧
    o.MayNum "gear_reduction" t.gr ∧ o.MayNum "battery_resistance" t.rb ∧ o.MayNum "battery_voltage" t.eo ∧
    o.MayNum "speed_control_resistance" t.rc

/-- the `rotation_direction` entry -/
def RotIn (j : Json) : RotArg → Prop
  | .str s => j.field "rotation_direction" = some (.str s)
  | .num x => j.Num "rotation_direction" x

/-- the object of one propeller -/
structure PropIn (j : Json) (q : FileProp) : Prop where
  position : ∃ c, j.field "position" = some c ∧ c.Num "dx" q.dx ∧ c.Num "dy" q.dy ∧ c.Num "dz" q.dz
  orientation : ∃ c, j.field "orientation" = some c ∧ c.Num "elevation_angle" q.elevation ∧
    c.Num "heading_angle" q.heading
  nodes : j.field "radial_nodes" = some (.nat q.nodes)
  diameter : j.Num "diameter" q.diameter
  hub : j.Num "hub_diameter" q.hub
  blades : j.field "num_of_blades" = some (.nat q.blades)
  rot : RotIn j q.rot
  pitch : ∃ t, j.field "pitch" = some t ∧ TableIn t q.pitch
  chord : ∃ t, j.field "chord" = some t ∧ TableIn t q.chord
  motor : MotorIn (j.field "electric_motor") q.motor
  airfoils : AirfoilsIn j q.airfoils ∧ q.airfoils ≠ []

/-- an entry `key` (absent, if the list is empty and no such key is written) that lists `l` in order -/
def ListIn {α : Type} (j : Json) (key : String) (R : String × Json → α → Prop) (l : List α) : Prop :=
  (l = [] ∧ j.field key = none) ∨ ∃ kvs, j.field key = some (.obj kvs) ∧ List.Forall₂ R kvs l

/-- the accepted unit names -/
def UnitsIn (c : Json) (u : Option String) : Prop :=
  (u = none ∧ (c.field "units" = none ∨ c.field "units" = some .null)) ∨
  (u = some "English" ∧ ∃ s, s ∈ ["English", "english"] ∧ c.field "units" = some (.str s)) ∨
  (u = some "SI" ∧ ∃ s, s ∈ ["SI", "si", "Si"] ∧ c.field "units" = some (.str s))

/-- `data` is a well-formed file that describes `F`: keys may come in any order and other keys may be present. -/
structure FileIn (data : Json) (F : FileDesc) : Prop where
  plane : ∃ p, data.field "plane" = some p ∧ p.field "name" = some (.str F.name) ∧ p.OptNum "CGx" F.cgx ∧
    p.OptNum "CGy" F.cgy ∧ p.OptNum "CGz" F.cgz
  reference : ∃ r, data.field "reference" = some r ∧ r.OptNum "longitudinal_length" F.longRef ∧
    r.OptNum "lateral_length" F.latRef
  condition : ∃ kvs, data.field "condition" = some (.obj kvs) ∧ UnitsIn (.obj kvs) F.units
  wings : ListIn data "wings" (fun kv w => kv.1 = w.name ∧ WingIn kv.2 w) F.wings
  props : ListIn data "propellers" (fun kv q => kv.1 = q.name ∧ PropIn kv.2 q) F.props
  /-- keys of a JSON object are distinct -/
  names : (F.wings.map (·.name)).Nodup

/-! ### The corresponding API calls -/

/-- the keywords of the `airfoil` call -/
def FileAirfoil.props (a : FileAirfoil) (span : Option SpanPos) : AirfoilProps :=
  { spanPosition := span, al0 := some a.al0, cla := some a.cla, clMax := some a.clMax, cml0 := some a.cml0
    cma := some a.cma, cd0 := some a.cd0, cd1 := some a.cd1, cd2 := some a.cd2 }

/-- One airfoil: used at both ends.  Several: the first at the root, the second at the tip. -/
def wingAirfoilOps (id : ℕ) : List FileAirfoil → List PlaneOp
  | [] => []
  | [a] => [.airfoil id a.name "both" (a.props none)]
  | a :: b :: _ => [.airfoil id a.name "root" (a.props none), .airfoil id b.name "tip" (b.props none)]

/-- the `control_surface` call -/
def controlOps (id : ℕ) : Option FileControl → List PlaneOp
  | none => []
  | some c => [.controlSurface id
      { percentSpan := some (c.spanRoot, c.spanTip), percentChord := some (.pair c.chordRoot c.chordTip)
        mix := some { aileron := c.aileron, elevator := c.elevator, rudder := c.rudder, flap := c.flap }
        sealed := some c.sealed }]

/-- the wing (the last one, should several have the same ID) that has the ID `id` -/
def withId (l : List FileWing) (id : ℕ) : Option FileWing := l.reverse.find? fun w => w.id = id

/-- the `connect_to` argument: ID 0 is the plane; other IDs are those of wings that come earlier in the file (or the wing
itself) -/
def connectTo (earlier : List FileWing) (w : FileWing) : Option String × String :=
  if w.parentId = 0 then (none, "tip") else ((withId (earlier ++ [w]) w.parentId).map (·.name), w.location)

/-- the calls for one wing; its object identity is the number of wings before it -/
def wingOps (earlier : List FileWing) (w : FileWing) : List PlaneOp :=
  .addWing w.name (connectTo earlier w).1 (connectTo earlier w).2 w.side
      { position := some ⟨w.dx, w.dy, w.dz⟩, isMain := some w.isMain, yoffset := some w.yoffset
        semispan := some w.semispan, rootChord := some w.rootChord, tipChord := some w.tipChord, sweep := some w.sweep
        dihedral := some w.dihedral, mountAngle := some w.mount, washout := some w.washout, grid := some w.grid } ::
    (wingAirfoilOps earlier.length w.airfoils ++ controlOps earlier.length w.control)

/-- the calls for all wings, in file order -/
def wingsOps : List FileWing → List FileWing → List PlaneOp
  | _, [] => []
  | earlier, w :: t => wingOps earlier w ++ wingsOps (earlier ++ [w]) t

/-- the `airfoil` calls on a propeller -/
def propAirfoilOps (name : String) : List FileAirfoil → List PlaneOp
  | [] => []
  | [a] => [.propAirfoil name a.name (a.props none)]
  | a :: b :: _ => [.propAirfoil name a.name (a.props (some (.name "root"))), .propAirfoil name b.name (b.props (some (.name "tip")))]

/-- the calls for one propeller -/
def propOps (q : FileProp) : List PlaneOp :=
  .addProp q.name
      { position := some ⟨q.dx, q.dy, q.dz⟩, orientation := some (q.elevation, q.heading), nodes := some q.nodes
        diameter := some q.diameter, hubDiameter := some q.hub, blades := some q.blades, rotDir := some q.rot
        pitch := some q.pitch, chord := some q.chord, motor := some q.motor } ::
    propAirfoilOps q.name q.airfoils

/-- the API calls that correspond to a file -/
def fileOps (F : FileDesc) : List PlaneOp :=
  [.cgLocation F.cgx F.cgy F.cgz, .setRefLengths F.latRef F.longRef] ++ wingsOps [] F.wings ++ F.props.flatMap propOps

/-- An API call by a caller that does not catch exceptions. -/
noncomputable def PlaneOp.runStrict (p : Plane) (op : PlaneOp) : Except PyErr Plane :=
  match op with
  | .addWing name parent location side d => match p.addWing name parent location side d with
    | (.ok _, q) => .ok q
    | (.error e, _) => .error e
  | .airfoil id name e props => match p.wingAirfoil id name e props with
    | (.ok _, q) => .ok q
    | (.error e, _) => .error e
  | .controlSurface id props => match p.wingCtrl id props with
    | (.ok _, q) => .ok q
    | (.error e, _) => .error e
  | .addProp name d => .ok (p.addProp name d)
  | .propAirfoil name af props => match p.propAirfoil name af props with
    | (.ok _, q) => .ok q
    | (.error e, _) => .error e
  | .cgLocation x y z => .ok (p.cgLocation x y z)
  | .setRefLengths a b => .ok (p.setRefLengths a b)

/-- A sequence of API calls, ended by the first exception. -/
noncomputable def runStrict (p : Plane) (ops : List PlaneOp) : Except PyErr Plane := ops.foldlM PlaneOp.runStrict p

/-- Every wing names the plane (0), an earlier wing or itself as its parent. -/
def ParentsKnown (ws : List FileWing) : Prop :=
  ∀ pre w post, ws = pre ++ w :: post → w.parentId = 0 ∨ ∃ v ∈ pre ++ [w], v.id = w.parentId

end Verif
