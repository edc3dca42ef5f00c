import Verif.Lemmas.InputFile

/-!
# A plane read from a file is the plane built through the API (C07)

`FileIn data F` (Spec/InputFile) is the file schema: `data` describes `F`.  `fileOps F` are the corresponding API calls.
-/

namespace Verif
open V3

/-- the wings part of the constructor -/
private noncomputable def wingsPart (ws : Option Json) (p : Plane) : Except PyErr Plane :=
  match ws with
  | none => .ok p
  | some ws => do
    let ws ← ws.items
    let conns ← mapConnections ws (fun _ => none) []
    ws.foldlM (fun p kv => addWingFromFile conns p kv.1 kv.2) p

/-- the propellers part of the constructor -/
private noncomputable def propsPart (ps : Option Json) (p : Plane) : Except PyErr Plane :=
  match ps with
  | none => .ok p
  | some ps => do
    let ps ← ps.items
    ps.foldlM (fun p kv => addPropFromFile p kv.1 kv.2) p

/-- the part of the constructor before the wings -/
private theorem planeFromFile_head {data : Json} {F : FileDesc} (h : FileIn data F) (pos : Option V3) :
    planeFromFile pos data =
      (wingsPart (data.field "wings")
        ((((newPlane F.name pos).cgLocation F.cgx F.cgy F.cgz).setRefLengths F.latRef F.longRef).withUnits F.units)) >>=
        propsPart (data.field "propellers") := by
  obtain ⟨pl, h0, h1, h2, h3, h4⟩ := h.plane
  obtain ⟨r, r0, r1, r2⟩ := h.reference
  obtain ⟨kvs, c0, c1⟩ := h.condition
  have h0' := item_of_field h0
  have h1' := item_of_field h1
  obtain ⟨v2, a2, b2⟩ := item_of_optNum h2
  obtain ⟨v3, a3, b3⟩ := item_of_optNum h3
  obtain ⟨v4, a4, b4⟩ := item_of_optNum h4
  have r0' := item_of_field r0
  obtain ⟨v5, a5, b5⟩ := item_of_optNum r1
  obtain ⟨v6, a6, b6⟩ := item_of_optNum r2
  have c0' := item_of_field c0
  have hu : checkUnits (dictGet kvs "units") = .ok F.units := by
    simp only [UnitsIn, Json.field] at c1
    rcases c1 with ⟨hu, hk | hk⟩ | ⟨hu, s, hs, hk⟩ | ⟨hu, s, hs, hk⟩
    · rw [hk, hu]; rfl
    · rw [hk, hu]; rfl
    · rw [hk, hu]
      simp only [List.mem_cons, List.not_mem_nil, or_false] at hs
      simp only [checkUnits]
      rw [if_pos hs]
    · rw [hk, hu]
      simp only [List.mem_cons, List.not_mem_nil, or_false] at hs
      simp only [checkUnits]
      rw [if_neg (by rcases hs with rfl | rfl | rfl <;> decide), if_pos hs]
  obtain ⟨l, rfl⟩ : ∃ l, data = .obj l := by cases data <;> simp_all [Json.field]
  simp only [planeFromFile, h0', h1', a2, b2, a3, b3, a4, b4, r0', a5, b5, a6, b6, c0', except_ok_bind, Json.string]
  have hi : (Json.obj l).items = .ok l := rfl
  have hk : (Json.obj kvs).items = .ok kvs := rfl
  simp only [hi, hk, except_ok_bind, hu, Json.field]
  cases dictGet l "wings" with
  | none => rfl
  | some ws =>
    simp only [wingsPart]
    cases ws.items with
    | error e => rfl
    | ok ws =>
      simp only [except_ok_bind]
      cases mapConnections ws (fun _ => none) [] with
      | error e => rfl
      | ok conns => rfl

/-- **C07.** For every well-formed file in which every wing names the plane, an earlier wing or itself as its parent, the
constructor does exactly what the corresponding API calls do, in file order: it gives the same plane, or raises the same
exception.  The only difference is the unit system, which cannot be given through the API. -/
theorem C07_file_is_api {data : Json} {F : FileDesc} (h : FileIn data F) (hpar : ParentsKnown F.wings)
    (pos : Option V3) :
    planeFromFile pos data =
      (runStrict (newPlane F.name pos) (fileOps F)).map fun p => { p with units := some F.units } := by
  rw [planeFromFile_head h]
  have e1 : runStrict (newPlane F.name pos) (fileOps F) =
      (runStrict (((newPlane F.name pos).cgLocation F.cgx F.cgy F.cgz).setRefLengths F.latRef F.longRef)
        (wingsOps [] F.wings)) >>= fun q => runStrict q (F.props.flatMap propOps) := by
    simp only [fileOps, List.append_assoc, runStrict_append, runStrict_cons, PlaneOp.runStrict, except_ok_bind,
      runStrict_nil]
  rw [e1]
  have e2 : wingsPart (data.field "wings")
        ((((newPlane F.name pos).cgLocation F.cgx F.cgy F.cgz).setRefLengths F.latRef F.longRef).withUnits F.units)
      = runStrict ((((newPlane F.name pos).cgLocation F.cgx F.cgy F.cgz).setRefLengths F.latRef F.longRef).withUnits
          F.units) (wingsOps [] F.wings) := by
    rcases h.wings with ⟨hw, hf⟩ | ⟨kvs, hf, hall⟩
    · rw [hf, hw]; rfl
    · rw [hf]
      obtain ⟨conns, hc, -, hconn⟩ := mapConnections_ok hall [] [] h.names
        (fun pre w post e => by simpa using hpar pre w post e)
      have hids : idsOf [] = fun _ => none := rfl
      rw [hids] at hc
      simp only [wingsPart, Json.items, except_ok_bind, hc]
      exact wings_eq hall [] _ rfl (fun pre w post e => by simpa using hconn pre w post e)
  rw [e2, runStrict_withUnits_list]
  cases runStrict (((newPlane F.name pos).cgLocation F.cgx F.cgy F.cgz).setRefLengths F.latRef F.longRef)
      (wingsOps [] F.wings) with
  | error e => rfl
  | ok q =>
    simp only [Except.map, except_ok_bind]
    rcases h.props with ⟨hw, hf⟩ | ⟨kvs, hf, hall⟩
    · rw [hf, hw]; rfl
    · rw [hf]
      simp only [propsPart, Json.items, except_ok_bind]
      rw [props_eq hall, runStrict_withUnits_list]
      rfl

/-- **C07**, in terms of the API state: if no call raises, the plane is the one `built` by the calls. -/
theorem C07_file_is_built {data : Json} {F : FileDesc} (h : FileIn data F) (hpar : ParentsKnown F.wings)
    (pos : Option V3) {p : Plane} (hp : planeFromFile pos data = .ok p) :
    p = { built F.name pos (fileOps F) with units := some F.units } := by
  rw [C07_file_is_api h hpar] at hp
  cases hr : runStrict (newPlane F.name pos) (fileOps F) with
  | error e => rw [hr] at hp; simp [Except.map] at hp
  | ok q =>
    rw [hr] at hp
    simp only [Except.map, Except.ok.injEq] at hp
    rw [← hp, built, runStrict_runOps hr]

/-- **C07, rejection.** If some wing names a parent ID that is not 0, not its own ID and not the ID of an earlier wing, the
constructor raises `KeyError`. -/
theorem C07_unknown_parent_partial {data : Json} {F : FileDesc} (h : FileIn data F)
    (hbad : ∃ pre w post, F.wings = pre ++ w :: post ∧ w.parentId ≠ 0 ∧ w.parentId ≠ w.id ∧
      ∀ v ∈ pre, v.id ≠ w.parentId) (pos : Option V3) :
    planeFromFile pos data = .error .key := by
  rw [planeFromFile_head h]
  obtain ⟨pre, w, post, hw, hb0, hb1, hb2⟩ := hbad
  rcases h.wings with ⟨hw', hf⟩ | ⟨kvs, hf, hall⟩
  · rw [hw'] at hw; simp at hw
  · rw [hf]
    have hk := mapConnections_key hall [] [] ⟨pre, w, post, hw, by
      rintro (h | ⟨v, hv, he⟩)
      · exact hb0 h
      · simp only [List.nil_append, List.mem_append, List.mem_singleton] at hv
        rcases hv with hv | rfl
        · exact hb2 v hv he
        · exact hb1 he.symm⟩
    have hids : idsOf [] = fun _ => none := rfl
    rw [hids] at hk
    simp only [wingsPart, Json.items, except_ok_bind, hk, except_error_bind]

/-! ### A concrete file -/

/-- airfoil object of the example file -/
noncomputable def exAirfoilJson : Json := .obj [("properties", .obj [("alpha_L0", .num (-0.02)), ("CL_alpha", .num 6.2),
  ("Cm_L0", .nat 0), ("Cm_alpha", .nat 0), ("CD0", .num 0.01), ("CD0_L", .nat 0), ("CD0_L2", .num 0.01),
  ("CL_max", .num 1.4)])]

/-- a file with a main wing (two airfoils, an aileron), a winglet on its tips and a propeller -/
noncomputable def exWingJson (id parent : ℕ) (airfoils : List (String × Json)) (control : Json) : Json :=
  .obj [("ID", .nat id), ("is_main", .bool (parent = 0)), ("side", .str "both"),
    ("connect", .obj [("ID", .nat parent), ("location", .str "tip"), ("dx", .nat 0), ("dy", .nat 0), ("dz", .nat 0),
      ("yoffset", .nat 0)]),
    ("span", .nat 4), ("sweep", .nat 0), ("dihedral", .nat 0), ("mounting_angle", .nat 0), ("washout", .nat 0),
    ("airfoils", .obj airfoils), ("root_chord", .nat 1), ("tip_chord", .nat 1), ("grid", .nat 40),
    ("control", control)]

/-- the control object of the main wing of the example file -/
noncomputable def exControlJson : Json := .obj [("span_root", .num 0.5), ("span_tip", .num 0.9), ("chord_root", .num 0.2),
  ("chord_tip", .num 0.2), ("is_sealed", .bool true), ("mix", .obj [("aileron", .nat 1)])]

/-- the example file; the second wing is connected to the wing with ID `parent` -/
noncomputable def exFile (parent : ℕ) : Json := .obj [
  ("plane", .obj [("name", .str "demo"), ("CGx", .num (-0.25)), ("CGy", .nat 0), ("CGz", .nat 0)]),
  ("reference", .obj [("longitudinal_length", .null), ("lateral_length", .nat 8)]),
  ("condition", .obj [("units", .str "si")]),
  ("wings", .obj [("main", exWingJson 1 0 [("a", exAirfoilJson), ("b", exAirfoilJson)] exControlJson),
    ("winglet", exWingJson 2 parent [("a", exAirfoilJson)] (.obj []))]),
  ("propellers", .obj [("prop", .obj [("position", .obj [("dx", .nat 1), ("dy", .nat 0), ("dz", .nat 0)]),
    ("orientation", .obj [("elevation_angle", .nat 0), ("heading_angle", .nat 0)]), ("radial_nodes", .nat 50),
    ("diameter", .nat 1), ("hub_diameter", .num 0.1), ("num_of_blades", .nat 2), ("rotation_direction", .str "CCW"),
    ("pitch", .obj [("type", .str "ratio"), ("value", .num 0.5)]), ("chord", .obj [("type", .str "default")]),
    ("airfoils", .obj [("a", exAirfoilJson)])])])]

/-- the airfoil of the example file -/
noncomputable def exFileAirfoil (name : String) : FileAirfoil :=
  { name, al0 := -0.02, cla := 6.2, cml0 := 0, cma := 0, cd0 := 0.01, cd1 := 0, cd2 := 0.01, clMax := 1.4 }

/-- a wing of the example file -/
noncomputable def exFileWing (name : String) (id parent : ℕ) (airfoils : List FileAirfoil) (c : Option FileControl) :
    FileWing :=
  { name, id, parentId := parent, location := "tip", side := "both", dx := 0, dy := 0, dz := 0, yoffset := 0
    isMain := parent = 0, semispan := 4, sweep := 0, dihedral := 0, mount := 0, washout := 0, rootChord := 1, tipChord := 1
    grid := 40, airfoils, control := c }

/-- what the example file describes -/
noncomputable def exFileDesc (parent : ℕ) : FileDesc :=
  { name := "demo", cgx := some (-0.25), cgy := some 0, cgz := some 0, longRef := none, latRef := some 8
    units := some "SI"
    wings := [exFileWing "main" 1 0 [exFileAirfoil "a", exFileAirfoil "b"]
        (some { spanRoot := 0.5, spanTip := 0.9, chordRoot := 0.2, chordTip := 0.2, aileron := some 1, elevator := none
                rudder := none, flap := none, sealed := true }),
      exFileWing "winglet" 2 parent [exFileAirfoil "a"] none]
    props := [{ name := "prop", dx := 1, dy := 0, dz := 0, elevation := 0, heading := 0, nodes := 50, diameter := 1
                hub := 0.1, blades := 2, rot := .str "CCW", pitch := { type := some "ratio", value := some 0.5 }
                chord := { type := some "default" }, motor := {}, airfoils := [exFileAirfoil "a"] }] }

theorem exAirfoil_in (name : String) : AirfoilIn exAirfoilJson (exFileAirfoil name) := by
  constructor
  refine ⟨_, rfl, ?_⟩
  simp [Json.Num, Json.field, dictGet, exFileAirfoil]

theorem exWing_in (name : String) (id parent : ℕ) (afs : List (String × Json)) (afs' : List FileAirfoil)
    (control : Json) (c : Option FileControl) (ha : List.Forall₂ (fun kv a => kv.1 = a.name ∧ AirfoilIn kv.2 a) afs afs')
    (hne : afs' ≠ []) (hc : ControlIn (.obj [("control", control)]) c) :
    WingIn (exWingJson id parent afs control) (exFileWing name id parent afs' c) := by
  constructor <;> simp [Json.Num, Json.field, dictGet, exFileWing, exWingJson, AirfoilsIn, ha, hne]
  cases c with
  | none => simpa [ControlIn, Json.field, dictGet] using hc
  | some c => simpa [ControlIn, Json.field, dictGet] using hc

theorem exFile_in (parent : ℕ) : FileIn (exFile parent) (exFileDesc parent) where
  plane := ⟨_, rfl, by simp [Json.OptNum, Json.Num, Json.field, dictGet, exFileDesc]⟩
  reference := ⟨_, rfl, by simp [Json.OptNum, Json.Num, Json.field, dictGet, exFileDesc]⟩
  condition := ⟨_, rfl, by simp [UnitsIn, Json.field, dictGet, exFileDesc]⟩
  wings := by
    refine .inr ⟨_, rfl, .cons ⟨rfl, ?_⟩ (.cons ⟨rfl, ?_⟩ .nil)⟩
    · refine exWing_in _ _ _ _ _ _ _ (.cons ⟨rfl, exAirfoil_in _⟩ (.cons ⟨rfl, exAirfoil_in _⟩ .nil)) (by simp) ?_
      simp [ControlIn, Json.field, dictGet, exControlJson, Json.Num, Json.MayNum]
    · refine exWing_in _ _ _ _ _ _ _ (.cons ⟨rfl, exAirfoil_in _⟩ .nil) (by simp) ?_
      exact ⟨_, rfl, .obj⟩
  props := by
    refine .inr ⟨_, rfl, .cons ⟨rfl, ?_⟩ .nil⟩
    constructor <;> simp [Json.Num, Json.field, dictGet, RotIn, TableIn, MotorIn, Json.MayStr, Json.MayNum, AirfoilsIn]
    exact ⟨rfl, exAirfoil_in _⟩
  names := by simp [exFileDesc, exFileWing]

/-- non-vacuity: the example file meets the hypotheses of `C07_file_is_api` and builds -/
example : FileIn (exFile 1) (exFileDesc 1) ∧ ParentsKnown (exFileDesc 1).wings ∧
    ∃ p, planeFromFile none (exFile 1) = .ok p ∧ p.wings = [("main", 0), ("winglet", 1)] ∧
      p.segments.map (·.name) = ["left_main", "right_main", "left_winglet", "right_winglet"] ∧
      p.segments.map (·.parent) = [.plane, .plane, .wing 0, .wing 0] ∧ p.props.map Prod.fst = ["prop"] := by
  have hp : ParentsKnown (exFileDesc 1).wings := by
    intro pre w post h
    match pre, h with
    | [], h =>
      simp only [exFileDesc, List.nil_append, List.cons.injEq] at h
      exact .inl (by rw [← h.1]; rfl)
    | [a], h =>
      simp only [exFileDesc, List.cons_append, List.nil_append, List.cons.injEq] at h
      refine .inr ⟨a, by simp, ?_⟩
      rw [← h.1, ← h.2.1]
      rfl
    | a :: b :: t, h => simp [exFileDesc] at h
  refine ⟨exFile_in 1, hp, ?_⟩
  rw [C07_file_is_api (exFile_in 1) hp]
  exact ⟨_, rfl, rfl, rfl, rfl, rfl⟩

/-- non-vacuity of the rejection: the second wing names the ID 7 -/
example : planeFromFile none (exFile 7) = .error .key :=
  C07_unknown_parent_partial (exFile_in 7) ⟨[_], _, [], rfl, by simp [exFileWing], by simp [exFileWing], by simp [exFileWing]⟩ none

/-- **C07 fails for a wing that names its own ID**: the file is accepted, and the wing is its own parent (its position can
never be computed, see `C03_refuted`). -/
theorem C07_refuted : ∃ data F w, FileIn data F ∧ w ∈ F.wings ∧ w.parentId ≠ 0 ∧ w.parentId = w.id ∧
    (∃ p, planeFromFile none data = .ok p ∧ ∃ i, dictGet p.wings w.name = some i ∧ ParentOf p i i) := by
  refine ⟨exFile 2, exFileDesc 2, _, exFile_in 2, List.mem_cons_of_mem _ List.mem_cons_self, by simp [exFileWing],
    by simp [exFileWing], ?_⟩
  have hp : ParentsKnown (exFileDesc 2).wings := by
    intro pre w post h
    match pre, h with
    | [], h =>
      simp only [exFileDesc, List.nil_append, List.cons.injEq] at h
      exact .inl (by rw [← h.1]; rfl)
    | [a], h =>
      simp only [exFileDesc, List.cons_append, List.nil_append, List.cons.injEq] at h
      refine .inr ⟨w, by simp, ?_⟩
      rw [← h.2.1]
      rfl
    | a :: b :: t, h => simp [exFileDesc] at h
  rw [C07_file_is_api (exFile_in 2) hp]
  exact ⟨_, rfl, 1, rfl, _, _, rfl, List.mem_cons_self, rfl⟩

end Verif
