import Verif.Model.Geometry

/-!
# Model of `Airplane(inputfile=...)` (`machup/geometry.py:74-245`)

`json.load` is not modelled: the file is given as the tree `json.load` returns.  Objects are the insertion-ordered
dictionaries it builds (`object_pairs_hook=OrderedDict`).
-/

namespace Verif
open V3

/-- A parsed JSON value.  Numbers written without a fraction that are not negative are `nat`, all others `num`. (`geometry.py:81`) -/
inductive Json
  | null
  | bool (b : Bool)
  | nat (n : ℕ)
  | num (x : ℝ)
  | str (s : String)
  | arr (l : List Json)
  | obj (kvs : List (String × Json))

namespace Json

/-- `j[key]` with a string key: `KeyError` for an object without the key, `TypeError` for anything but an object. (for example `geometry.py:82-88`) -/
def item (j : Json) (k : String) : Except PyErr Json :=
  match j with
  | obj kvs => getKey (dictGet kvs k)
  | _ => .error .type

/-- A number.  The code does not look at the type here: another type would raise a `TypeError` in a later computation;
the model raises it at once. (for example `geometry.py:83-85`) -/
def real : Json → Except PyErr ℝ
  | nat n => .ok n
  | num x => .ok x
  | _ => .error .type

/-- A number or `null`. (for example `geometry.py:83-87`) -/
def optReal : Json → Except PyErr (Option ℝ)
  | null => .ok none
  | nat n => .ok (some n)
  | num x => .ok (some x)
  | _ => .error .type

/-- A non-negative integer (other types: see `real`). (for example `geometry.py:139`) -/
def natural : Json → Except PyErr ℕ
  | nat n => .ok n
  | _ => .error .type

/-- A string (other types: see `real`). (for example `geometry.py:82`) -/
def string : Json → Except PyErr String
  | str s => .ok s
  | _ => .error .type

/-- A truth value given as a boolean (other types: see `real`). (for example `geometry.py:130`) -/
def boolean : Json → Except PyErr Bool
  | bool b => .ok b
  | _ => .error .type

/-- The items of an object (`.items()`, `list(...)`; `AttributeError` for anything else is put under `type`). (for example `geometry.py:92`, `95`) -/
def items : Json → Except PyErr (List (String × Json))
  | obj kvs => .ok kvs
  | _ => .error .type

open Classical in
/-- Python truth value (for example `geometry.py:74`) -/
noncomputable def truthy : Json → Bool
  | null => false
  | bool b => b
  | nat n => n ≠ 0
  | num x => x ≠ 0
  | str s => s ≠ ""
  | arr l => !l.isEmpty
  | obj kvs => !kvs.isEmpty

end Json

/-- The value of an optional key. (for example `geometry.py:88`) -/
def optKey {α : Type*} (f : Json → Except PyErr α) (kvs : List (String × Json)) (k : String) : Except PyErr (Option α) :=
  match dictGet kvs k with
  | none => .ok none
  | some j => match f j with
    | .ok a => .ok (some a)
    | .error e => .error e

/-- `_check_units(data["condition"].get("units", None))` (`geometry.py:88`, `98-106`). -/
def checkUnits (u : Option Json) : Except PyErr (Option String) :=
  match u with
  | none => .ok none
  | some .null => .ok none
  | some (.str s) =>
    if s = "English" ∨ s = "english" then .ok (some "English")
    else if s = "SI" ∨ s = "si" ∨ s = "Si" then .ok (some "SI")
    else .error .runtime
  | some _ => .error .type

/-- `_map_wing_connections` (`geometry.py:108-120`): `ids` is `id_map`, `conns` is `_connections`.
IDs are non-negative integers (other types: see `Json.real`). -/
def mapConnections : List (String × Json) → (ℕ → Option String) → List (String × Option String × String) →
    Except PyErr (List (String × Option String × String))
  | [], _, conns => .ok conns
  | (name, w) :: t, ids, conns => do
    let id ← (← w.item "ID").natural
    let ids := Function.update ids id (some name)
    let parentId ← (← (← w.item "connect").item "ID").natural
    if parentId = 0 then mapConnections t ids (dictSet conns name (none, "tip"))
    else
      let parent ← getKey (ids parentId)
      let location ← (← (← w.item "connect").item "location").string
      mapConnections t ids (dictSet conns name (some parent, location))

/-- the eight airfoil keywords (`geometry.py:146-153` and the other three places) -/
def readAirfoil (props : Json) (span : Option SpanPos) : Except PyErr AirfoilProps := do
  let al0 ← (← props.item "alpha_L0").real
  let cla ← (← props.item "CL_alpha").real
  let cml0 ← (← props.item "Cm_L0").real
  let cma ← (← props.item "Cm_alpha").real
  let cd0 ← (← props.item "CD0").real
  let cd1 ← (← props.item "CD0_L").real
  let cd2 ← (← props.item "CD0_L2").real
  let clMax ← (← props.item "CL_max").real
  return { spanPosition := span, al0 := some al0, cla := some cla, clMax := some clMax, cml0 := some cml0
           cma := some cma, cd0 := some cd0, cd1 := some cd1, cd2 := some cd2 }

/-- an exception from a method propagates out of the constructor, and no plane is returned (`geometry.py:77-245`) -/
def orRaise {α : Type} (r : Except PyErr α × Plane) : Except PyErr (α × Plane) :=
  match r with
  | (.ok a, p) => .ok (a, p)
  | (.error e, _) => .error e

/-- the airfoils of a wing (`geometry.py:141-176`); the `IndexError` for an empty object is put under `value` -/
noncomputable def addWingAirfoils (p : Plane) (id : ℕ) (airfoils : List (String × Json)) : Except PyErr Plane :=
  match airfoils with
  | [] => .error .value
  | [(n, j)] => do
    let root ← j.item "properties"
    let (_, p) ← orRaise (p.wingAirfoil id n "both" (← readAirfoil root none))
    return p
  | (n1, j1) :: (n2, j2) :: _ => do
    let root ← j1.item "properties"
    let tip ← j2.item "properties"
    let (_, p) ← orRaise (p.wingAirfoil id n1 "root" (← readAirfoil root none))
    let (_, p) ← orRaise (p.wingAirfoil id n2 "tip" (← readAirfoil tip none))
    return p

/-- the `mix` dictionary of a control surface (`geometry.py:1408-1416`) -/
def readMix (j : Json) : Except PyErr Mix := do
  let kvs ← j.items
  let a ← optKey Json.real kvs "aileron"
  let e ← optKey Json.real kvs "elevator"
  let r ← optKey Json.real kvs "rudder"
  let f ← optKey Json.real kvs "flap"
  return { aileron := a, elevator := e, rudder := r, flap := f }

/-- the control surface of a wing (`geometry.py:178-188`) -/
noncomputable def addWingControl (p : Plane) (id : ℕ) (c : Json) : Except PyErr Plane :=
  if c.truthy then do
    let s0 ← (← c.item "span_root").real
    let s1 ← (← c.item "span_tip").real
    let c0 ← (← c.item "chord_root").real
    let c1 ← (← c.item "chord_tip").real
    let mix ← readMix (← c.item "mix")
    let sealed ← (← c.item "is_sealed").boolean
    let (_, p) ← orRaise (p.wingCtrl id { percentSpan := some (s0, s1), percentChord := some (.pair c0 c1)
                                          mix := some mix, sealed := some sealed })
    return p
  else .ok p

/-- `_add_wing_from_inputfile` (`geometry.py:122-188`). -/
noncomputable def addWingFromFile (conns : List (String × Option String × String)) (p : Plane) (name : String)
    (w : Json) : Except PyErr Plane := do
  let conn ← getKey (dictGet conns name)
  let side ← (← w.item "side").string
  let dx ← (← (← w.item "connect").item "dx").real
  let dy ← (← (← w.item "connect").item "dy").real
  let dz ← (← (← w.item "connect").item "dz").real
  let isMain ← (← w.item "is_main").boolean
  let yoffset ← (← (← w.item "connect").item "yoffset").real
  let semispan ← (← w.item "span").real
  let sweep ← (← w.item "sweep").real
  let dihedral ← (← w.item "dihedral").real
  let mount ← (← w.item "mounting_angle").real
  let washout ← (← w.item "washout").real
  let rootChord ← (← w.item "root_chord").real
  let tipChord ← (← w.item "tip_chord").real
  let grid ← (← w.item "grid").natural
  let (id, p) ← orRaise (p.addWing name conn.1 conn.2 side
    { position := some ⟨dx, dy, dz⟩, isMain := some isMain, yoffset := some yoffset, semispan := some semispan
      rootChord := some rootChord, tipChord := some tipChord, sweep := some sweep, dihedral := some dihedral
      mountAngle := some mount, washout := some washout, grid := some grid })
  let airfoils ← (← w.item "airfoils").items
  let p ← addWingAirfoils p id airfoils
  let control ← w.item "control"
  addWingControl p id control

/-- the `pitch` / `chord` dictionary of a propeller, keys as read in `propmodel.py:164-223` -/
def readTable (j : Json) : Except PyErr PropTable := do
  let kvs ← j.items
  let type ← optKey Json.string kvs "type"
  let value ← optKey Json.real kvs "value"
  let filename ← optKey Json.string kvs "filename"
  let increment ← optKey Json.real kvs "pitch_increment"
  let root ← optKey Json.real kvs "root"
  let tip ← optKey Json.real kvs "tip"
  return { type, value, filename, increment, root, tip }

/-- the `electric_motor` dictionary of a propeller, keys as read in `propmodel.py:227-237` -/
def readMotor (j : Option Json) : Except PyErr MotorInfo := do
  match j with
  | none => return {}
  | some j =>
    let kvs ← j.items
    let hasMotor ← optKey Json.boolean kvs "has_motor"
    let kv ← optKey Json.real kvs "motor_kv"
    let rm ← optKey Json.real kvs "motor_resistance"
    let io ← optKey Json.real kvs "motor_no_load_current"
    let gr ← optKey Json.real kvs "gear_reduction"
    let rb ← optKey Json.real kvs "battery_resistance"
    let eo ← optKey Json.real kvs "battery_voltage"
    let rc ← optKey Json.real kvs "speed_control_resistance"
    return { hasMotor, kv, rm, io, gr, rb, eo, rc }

/-- `rotation_direction`: a string or a number (`geometry.py:190-245`) -/
def readRot : Json → Except PyErr RotArg
  | .str s => .ok (.str s)
  | .nat n => .ok (.num n)
  | .num x => .ok (.num x)
  | _ => .error .type

/-- the airfoils of a propeller (`geometry.py:209-245`); the `IndexError` for an empty object is put under `value` -/
noncomputable def addPropAirfoils (p : Plane) (name : String) (airfoils : List (String × Json)) : Except PyErr Plane :=
  match airfoils with
  | [] => .error .value
  | [(n, j)] => do
    let root ← j.item "properties"
    let (_, p) ← orRaise (p.propAirfoil name n (← readAirfoil root none))
    return p
  | (n1, j1) :: (n2, j2) :: _ => do
    let root ← j1.item "properties"
    let tip ← j2.item "properties"
    let (_, p) ← orRaise (p.propAirfoil name n1 (← readAirfoil root (some (.name "root"))))
    let (_, p) ← orRaise (p.propAirfoil name n2 (← readAirfoil tip (some (.name "tip"))))
    return p

/-- `_add_prop_from_inputfile` (`geometry.py:190-245`). -/
noncomputable def addPropFromFile (p : Plane) (name : String) (w : Json) : Except PyErr Plane := do
  let dx ← (← (← w.item "position").item "dx").real
  let dy ← (← (← w.item "position").item "dy").real
  let dz ← (← (← w.item "position").item "dz").real
  let elev ← (← (← w.item "orientation").item "elevation_angle").real
  let head ← (← (← w.item "orientation").item "heading_angle").real
  let nodes ← (← w.item "radial_nodes").natural
  let dia ← (← w.item "diameter").real
  let hub ← (← w.item "hub_diameter").real
  let blades ← (← w.item "num_of_blades").natural
  let rot ← readRot (← w.item "rotation_direction")
  let pitch ← readTable (← w.item "pitch")
  let chord ← readTable (← w.item "chord")
  let motor ← readMotor (dictGet (← w.items) "electric_motor")
  let airfoils ← (← w.item "airfoils").items
  let p := p.addProp name
    { position := some ⟨dx, dy, dz⟩, orientation := some (elev, head), nodes := some nodes, diameter := some dia
      hubDiameter := some hub, blades := some blades, rotDir := some rot, pitch := some pitch, chord := some chord
      motor := some motor }
  addPropAirfoils p name airfoils

/-- `Airplane(name, position, inputfile)` (`geometry.py:64-96`) for the file content `data`.
The `name` argument is overwritten by the file. -/
noncomputable def planeFromFile (position : Option V3) (data : Json) : Except PyErr Plane := do
  let name ← (← (← data.item "plane").item "name").string
  let x ← (← (← data.item "plane").item "CGx").optReal
  let y ← (← (← data.item "plane").item "CGy").optReal
  let z ← (← (← data.item "plane").item "CGz").optReal
  let p := (newPlane name position).cgLocation x y z
  let longRef ← (← (← data.item "reference").item "longitudinal_length").optReal
  let latRef ← (← (← data.item "reference").item "lateral_length").optReal
  let condition ← (← data.item "condition").items
  let units ← checkUnits (dictGet condition "units")
  let p := { p with longRef := longRef, latRef := latRef, units := some units }
  let top ← data.items
  let p ← match dictGet top "wings" with
    | none => .ok p
    | some ws => do
      let ws ← ws.items
      let conns ← mapConnections ws (fun _ => none) []
      ws.foldlM (fun p kv => addWingFromFile conns p kv.1 kv.2) p
  match dictGet top "propellers" with
    | none => .ok p
    | some ps => do
      let ps ← ps.items
      ps.foldlM (fun p kv => addPropFromFile p kv.1 kv.2) p

end Verif
