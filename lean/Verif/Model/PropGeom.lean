import Verif.Model.MUInit
import Mathlib.Data.List.Sort
import Mathlib.Analysis.SpecialFunctions.Pow.Real

/-!
# Model of the constructor of `PropModel` (`propmodel.py:25-309`)

The arrays along the blade are functions of the node number `i < nodes`; the values beyond are never read.
A constructor that leaves `nan`/`inf` in its arrays has the outcome `.error .nonfinite`.

The tables of pitch and chord read from files (`np.loadtxt` and cubic `interp1d`, `propmodel.py:171-175`, `205-208`) are
the parameter `table : filename → r/R → value`.
-/

namespace Verif
open V3

/-- the aerodynamic data of the blade at one node (`propmodel.py:83-160`) -/
structure BladeAf where
  aL0 : ℝ
  CLa : ℝ
  CLm : ℝ
  CD0 : ℝ
  CDL : ℝ
  CDL2 : ℝ

/-- the getters of `Airfoil` used in `propmodel.py:86-94`, `122-131` -/
def Airfoil.blade (a : Airfoil) : BladeAf := ⟨a.al0, a.cla, a.clMax, a.cd0, a.cd1, a.cd2⟩

/-- the arrays at one node (`propmodel.py:45-50`, `63-281`) -/
structure Stn where
  /-- `_zeta` -/
  zeta : ℝ
  /-- `_r` -/
  r : ℝ
  /-- `_alpha_L0`, `_CL_alpha`, `_CL_max`, `_CD_0`, `_CD_L`, `_CD_L2` -/
  af : BladeAf
  /-- `_beta` -/
  beta : ℝ
  /-- `_cb` -/
  cb : ℝ
  /-- `_chatb` -/
  chatb : ℝ
  /-- `_c_r` -/
  cr : ℝ
  /-- `_a_stall` -/
  aStall : ℝ
  /-- `_dA` -/
  dA : ℝ
  /-- `_a_stall_neg` -/
  aStallNeg : ℝ
  /-- `_delay_a_stall` -/
  das : ℝ
  /-- `_delay_a_stall_neg` -/
  dasNeg : ℝ
  /-- `_A2` -/
  A2 : ℝ
  /-- `_B2` -/
  B2 : ℝ
  /-- `_A2_neg` -/
  A2n : ℝ
  /-- `_B2_neg` -/
  B2n : ℝ

/-- placeholder for nodes that do not exist (no code: nodes beyond those of `propmodel.py:49`) -/
def Stn.zero : Stn :=
  { zeta := 0, r := 0, af := ⟨0, 0, 0, 0, 0, 0⟩, beta := 0, cb := 0, chatb := 0, cr := 0, aStall := 0, dA := 0
    aStallNeg := 0, das := 0, dasNeg := 0, A2 := 0, B2 := 0, A2n := 0, B2n := 0 }

/-- `self._zeta = np.linspace(hd/d, 0.999, nodes)` (`propmodel.py:49`) -/
noncomputable def zetaAt (q : PropGeom) (i : ℕ) : ℝ :=
  q.hubDiameter / q.diameter + i * ((0.999 - q.hubDiameter / q.diameter) / ((q.nodes : ℝ) - 1))

/-- `_prop_forward` (`propmodel.py:53-58`) -/
noncomputable def propForward (q : PropGeom) : V3 :=
  let st := Real.sin (rad q.orientation.1)
  let ct := Real.cos (rad q.orientation.1)
  let sg := Real.sin (rad q.orientation.2)
  let cg := Real.cos (rad q.orientation.2)
  ⟨ct * cg, ct * sg, -st⟩

open Classical in
/-- `Prop.get_rot_dir` (`geometry.py:1178-1183`) -/
noncomputable def PropGeom.rot (q : PropGeom) : ℝ :=
  match q.rotDir with
  | .str s => if s = "CCW" ∨ s = "ccw" then 1 else if s = "CW" ∨ s = "cw" then -1 else 1
  | .num x => if x = 1 then 1 else if x = -1 then -1 else 1

open Classical in
/-- Piecewise linear interpolation through points with increasing abscissae, extended beyond the ends
(`interp1d(kind='linear')` and `np.interp` between the ends). (`interp1d` in `propmodel.py:147-152`) -/
noncomputable def pwl : List (ℝ × ℝ) → ℝ → ℝ
  | [], _ => 0
  | [(_, y0)], _ => y0
  | (x0, y0) :: (x1, y1) :: t, x =>
    if x ≤ x1 ∨ t = [] then y0 + (x - x0) * ((y1 - y0) / (x1 - x0)) else pwl ((x1, y1) :: t) x

open Classical in
/-- `interp1d(loc, val, kind='linear', bounds_error=False, fill_value=(val[0], val[-1]))` (`propmodel.py:145-150`) -/
noncomputable def interpFill (l : List (ℝ × ℝ)) (x : ℝ) : ℝ :=
  match l.head?, l.getLast? with
  | some a, some b => if x < a.1 then a.2 else if b.1 < x then b.2 else pwl l x
  | _, _ => 0

/-- `span_pos` (`propmodel.py:101-107`).  A string that is not one of the six stays a string and cannot be compared with
the others in `sorted`. -/
def spanFrac (z0 z1 : ℝ) : Option SpanPos → Except PyErr ℝ
  | none => .error .runtime
  | some (.name s) =>
    if s = "root" ∨ s = "Root" ∨ s = "ROOT" then .ok z0
    else if s = "tip" ∨ s = "Tip" ∨ s = "TIP" then .ok z1
    else .error .type
  | some (.frac x) => .ok x

open Classical in
/-- `_calc_coefficients` (`propmodel.py:63-162`): airfoil data at each node.
With no airfoil the default one is added to the propeller (`propmodel.py:79-81`).  Two airfoils at the same position make
`sorted` compare `Airfoil` objects, a `TypeError`.
Simplification: a string that is not one of the six is a `TypeError` also where all positions are such strings. -/
noncomputable def bladeAf (q : PropGeom) : Except PyErr (ℕ → BladeAf) :=
  match q.airfoils with
  | [] => .ok fun _ => (Airfoil.default "NACA2412").blade
  | [(_, a)] => .ok fun _ => a.blade
  | l => do
    let pos ← l.mapM fun kv => do
      let x ← spanFrac (zetaAt q 0) (zetaAt q (q.nodes - 1)) kv.2.spanPosition
      return (x, kv.2.blade)
    let s := pos.insertionSort fun a b => a.1 ≤ b.1
    if (s.map Prod.fst).Nodup then
      let f (g : BladeAf → ℝ) (i : ℕ) : ℝ := interpFill (s.map fun p => (p.1, g p.2)) (zetaAt q i)
      return fun i => ⟨f BladeAf.aL0 i, f BladeAf.CLa i, f BladeAf.CLm i, f BladeAf.CD0 i, f BladeAf.CDL i, f BladeAf.CDL2 i⟩
    else .error .type

open Classical in
/-- aerodynamic pitch angle from chord-line pitch-to-diameter ratio `Kc` (`propmodel.py:191-192`) -/
noncomputable def aeroPitch (zeta Kc aL0 : ℝ) : Option ℝ :=
  let z := Real.pi * zeta
  if Real.cos aL0 = 0 ∨ z + Kc * Real.tan aL0 = 0 then none
  else some (arctan2 (z * ((Kc - z * Real.tan aL0) / (z + Kc * Real.tan aL0))) z)

open Classical in
/-- aerodynamic pitch angle from chord-line pitch in degrees at a radius (`propmodel.py:174`, `177-180`) -/
noncomputable def filePitch (r deg aL0 : ℝ) : Option ℝ :=
  let c := 2 * Real.pi * r
  let lc := c * Real.tan (rad deg)
  if Real.cos aL0 = 0 ∨ Real.cos (rad deg) = 0 ∨ c + lc * Real.tan aL0 = 0 ∨ c = 0 then none
  else some (Real.arctan ((c * (lc - c * Real.tan aL0) / (c + lc * Real.tan aL0)) / c))

/-- `_calc_pitch` (`propmodel.py:164-195`) at one node; `none` for `nan`/`inf`. The value of the table is in degrees (the
conversion is applied to the data before interpolating, which makes no difference for a spline). -/
noncomputable def bladePitch (table : String → ℝ → ℝ) (q : PropGeom) (zeta r aL0 : ℝ) : Except PyErr (Option ℝ) := do
  let inc := rad (q.pitch.increment.getD 0)
  match q.pitch.type with
  | none => .error .key
  | some "default" => return (aeroPitch zeta 0.5 aL0).map (· + inc)
  | some "from_file" =>
    let f ← getKey q.pitch.filename
    return (filePitch r (table f zeta) aL0).map (· + inc)
  | some "ratio" =>
    let k ← getKey q.pitch.value
    return (aeroPitch zeta k aL0).map (· + inc)
  | some "value" =>
    let v ← getKey q.pitch.value
    return (aeroPitch zeta (v / q.diameter) aL0).map (· + inc)
  | some _ => .error .runtime

open Classical in
/-- `np.sqrt(1-zeta**2)` (`propmodel.py:201`, `217`) -/
noncomputable def ellipse (zeta : ℝ) : Option ℝ := if 1 - zeta ^ 2 < 0 then none else some (Real.sqrt (1 - zeta ^ 2))

open Classical in
/-- `_linearInterp` (`propmodel.py:1538-1541`) on the array `_zeta` -/
noncomputable def linearInterp (q : PropGeom) (left right zeta : ℝ) : Option ℝ :=
  let span := zetaAt q (q.nodes - 1) - zetaAt q 0
  if span = 0 then none else some (left + (zeta - zetaAt q 0) * ((right - left) / span))

/-- `_calc_chord` (`propmodel.py:197-219`) at one node: `_cb` -/
noncomputable def bladeChord (table : String → ℝ → ℝ) (q : PropGeom) (zeta : ℝ) : Except PyErr (Option ℝ) :=
  match q.chord.type with
  | none => .error .key
  | some "default" => .ok ((ellipse zeta).map (0.075 * q.diameter * ·))
  | some "from_file" => do
    let f ← getKey q.chord.filename
    return some (table f zeta * q.diameter / 2)
  | some "linear" => do
    let root ← getKey q.chord.root
    return linearInterp q root (q.chord.tip.getD root) zeta
  | some "elliptical" => do
    let root ← getKey q.chord.root
    return (ellipse zeta).map (root * ·)
  | some _ => .error .runtime

/-- motor data (`propmodel.py:227-237`) -/
structure Motor where
  kv : ℝ
  rm : ℝ
  io : ℝ
  gr : ℝ
  rb : ℝ
  eo : ℝ
  rc : ℝ

/-- `_calc_motor` (`propmodel.py:227-237`); `none`: `_has_motor` is false -/
def calcMotor (m : MotorInfo) : Except PyErr (Option Motor) :=
  if m.hasMotor = some true then do
    let kv ← getKey m.kv
    let rm ← getKey m.rm
    let io ← getKey m.io
    let gr ← getKey m.gr
    let rb ← getKey m.rb
    let eo ← getKey m.eo
    let rc ← getKey m.rc
    return some ⟨kv, rm, io, gr, rb, eo, rc⟩
  else .ok none

/-- `CDm = 1.11+0.018*10` (`propmodel.py:263`) -/
noncomputable def cdm : ℝ := 1.11 + 0.018 * 10

open Classical in
/-- `_chatb`, `_c_r` (`propmodel.py:221-223`) and `_calc_stall_delay` (`propmodel.py:239-281`) at one node; `none` for
`nan`/`inf` -/
noncomputable def mkStn (q : PropGeom) (zeta r : ℝ) (af : BladeAf) (beta cb : ℝ) : Option Stn :=
  let cr := cb / r
  let aStall := af.CLm / af.CLa
  let sep := (0.1517 / cr) ^ (1 / 1.084 : ℝ) * cr / 0.136
  let dA := aStall * (sep - 1)
  let aStallNeg := aStall + 1.5 * af.aL0
  let CLmNeg := aStallNeg * af.CLa
  let das := aStall + dA
  let dasNeg := -aStall + dA
  let sdCL := das * af.CLa
  let sdCLneg := dasNeg * af.CLa
  let CDmax := af.CD0 + af.CDL * sdCL + af.CDL2 * sdCL * sdCL
  let CDmaxNeg := af.CD0 + af.CDL * sdCLneg + af.CDL2 * sdCLneg * sdCLneg
  let sas := Real.sin aStall
  let cas := Real.cos aStall
  let sasn := Real.sin aStallNeg
  let casn := Real.cos aStallNeg
  let sdas := Real.sin das
  let cdas := Real.cos das
  let sdasn := Real.sin (-dasNeg)
  let cdasn := Real.cos (-dasNeg)
  if r ≠ 0 ∧ zeta ≠ 0 ∧ af.CLa ≠ 0 ∧ 0 < cr ∧ cas ≠ 0 ∧ cdas ≠ 0 ∧ casn ≠ 0 ∧ cdasn ≠ 0 then
    some {
      zeta, r, af, beta, cb
      chatb := q.blades * cb / q.diameter
      cr, aStall, dA, aStallNeg, das, dasNeg
      A2 := (af.CLm - cdm * sas * cas) * sas / (cas * cas)
      B2 := (CDmax - cdm * sdas * sdas) / cdas
      A2n := (CLmNeg - cdm * sasn * casn) * sasn / (casn * casn)
      B2n := (CDmaxNeg - cdm * sdasn * sdasn) / cdasn }
  else none

/-- A `PropModel` object: what the constructor computes. `ι` indexes the wing points. (`propmodel.py:24-41`) -/
structure PropM (ι : Type) where
  /-- `_prop` -/
  geom : PropGeom
  /-- the arrays along the blade -/
  stn : ℕ → Stn
  /-- `_has_motor` and the motor data -/
  motor : Option Motor
  /-- `_wing_points` -/
  pts : Option (ι → V3)
  /-- `_cg_location` -/
  cg : V3
  /-- `_units` -/
  units : Option String

namespace PropM
variable {ι : Type} (M : PropM ι)

/-- `_d` (`propmodel.py:46`) -/
def d : ℝ := M.geom.diameter
/-- `_nodes` (`propmodel.py:48`) -/
def nodes : ℕ := M.geom.nodes
/-- `_prop_forward` (`propmodel.py:58`) -/
noncomputable def fwd : V3 := propForward M.geom
/-- `_rot_dir` (`propmodel.py:59`) -/
noncomputable def rot : ℝ := M.geom.rot
/-- `_k` (`propmodel.py:221`) -/
def blades : ℝ := M.geom.blades

end PropM

/-- the arrays at node `i` (`propmodel.py:49-61`, `164-223`, `239-281`); `none` for `nan`/`inf` -/
noncomputable def stnAt (table : String → ℝ → ℝ) (q : PropGeom) (af : BladeAf) (i : ℕ) : Option Stn :=
  match bladePitch table q (zetaAt q i) (zetaAt q i * q.diameter * 0.5) af.aL0, bladeChord table q (zetaAt q i) with
  | .ok (some beta), .ok (some cb) => mkStn q (zetaAt q i) (zetaAt q i * q.diameter * 0.5) af beta cb
  | _, _ => none

open Classical in
/-- `PropModel.__init__` (`propmodel.py:25-41`).
The exceptions of `_calc_pitch` and `_calc_chord` do not depend on the node; they are raised for node 0 here.
Simplification: a propeller without nodes is `.error .value` (the code raises `IndexError` or `ValueError` later). -/
noncomputable def mkPropM {ι : Type} (table : String → ℝ → ℝ) (q : PropGeom) (cg : V3) (units : Option String)
    (pts : Option (ι → V3)) : Except PyErr (PropM ι) := do
  if q.diameter = 0 then .error .zeroDiv
  else if q.nodes = 0 then .error .value
  else
    let af ← bladeAf q
    let _ ← bladePitch table q (zetaAt q 0) (zetaAt q 0 * q.diameter * 0.5) (af 0).aL0
    let _ ← bladeChord table q (zetaAt q 0)
    let motor ← calcMotor q.motor
    if ∀ i, i < q.nodes → (stnAt table q (af i) i).isSome then
      return { geom := q, stn := fun i => (stnAt table q (af i) i).getD Stn.zero, motor, pts, cg, units }
    else .error .nonfinite

end Verif
