import Verif.Model.LLState
import Verif.Model.Stall

/-!
# Model of the `MachUp` class (`machup/MU.py`)

The methods of `MachUp` are actions `Act S α`: they read and write a state and return a value or raise.  The state `World`
holds the solver objects, the `aero_state` and `control_state` dictionaries *of the caller* (which the methods mutate), the
result dictionaries handed out so far and the files written.

The wing model (`LLModel`) and the propeller model (`PropsSolver`) are the two fields `wingSolve` and `propSolve` of a
`Backend`.  They are arbitrary functions here; `Model/MachUp.lean` plugs in the models of the actual code.

Runs in which `nan`/`inf` appears: `solve` has the outcome `.error .nonfinite` in that case.  The code carries on with `nan`
instead; `tryFinite` is used where that matters for the control flow (the sweeps and `target_lift`).
-/

namespace Verif
open V3

/-- A computation with mutable state `S` and Python exceptions: the state changes made before an exception persist. (the semantics of the method bodies `MU.py:62-1335`) -/
def Act (S α : Type) : Type := S → Except PyErr α × S

namespace Act
variable {S α β : Type}

/-- `return a` (for example `MU.py:190`) -/
def ret (a : α) : Act S α := fun s => (.ok a, s)

/-- sequencing; an exception ends the computation (statements one after the other, everywhere in `MU.py`) -/
def seq (m : Act S α) (f : α → Act S β) : Act S β := fun s =>
  match m s with
  | (.ok a, s') => f a s'
  | (.error e, s') => (.error e, s')

/-- statement sequences of the method bodies (`MU.py:62-1335`) -/
instance : Monad (Act S) where
  pure := ret
  bind := seq

/-- `raise` (for example `MU.py:586`) -/
def raise (e : PyErr) : Act S α := fun s => (.error e, s)

/-- change of the state (for example `MU.py:425`) -/
def change (f : S → S) : Act S Unit := fun s => (.ok (), f s)

/-- the state (for example `MU.py:418`) -/
def get : Act S S := fun s => (.ok s, s)

/-- `none` if the computation produced `nan`/`inf`; Python exceptions are passed on (for example `MU.py:434-440`, where `nan` goes on through the arithmetic) -/
def tryFinite (m : Act S α) : Act S (Option α) := fun s =>
  match m s with
  | (.ok a, s') => (.ok (some a), s')
  | (.error .nonfinite, s') => (.ok none, s')
  | (.error e, s') => (.error e, s')

end Act

/-- `results["total"]` of the propeller solver (`propssolver.py:95-107`). -/
structure PropTotals where
  loads : Loads
  thrust : ℝ
  torque : ℝ

/-- What a `MachUp` object consists of, with the two solvers as parameters.
`ι` is the index type of the wing sections. (`MU.py:62-99`) -/
structure Backend (ι : Type) where
  /-- mutable state of the solver objects `myllmodel` and `myprops` -/
  σ : Type
  /-- `prop_state` dictionaries -/
  π : Type
  /-- truth value of `myairplane._wings` -/
  hasWings : Bool
  /-- truth value of `myairplane._props` -/
  hasProps : Bool
  /-- `self.Sw` -/
  Sw : ℝ
  /-- `self.lat_ref` -/
  lat : ℝ
  /-- `self.long_ref` -/
  long : ℝ
  /-- `self.myprops.solve(aero_state, prop_state)`: totals and, if there are wing points, the velocity field -/
  propSolve : AeroDict ι → Option π → Act σ (PropTotals × Option (ι → ℝ × V3))
  /-- a plane without wings has no wing points (`wing_control_points = None`, `MU.py:69`) and no velocity field
  (`propssolver.py:60-66`) -/
  noField : hasWings = false → ∀ d ps s r f s', propSolve d ps s = (.ok (r, f), s') → f = none
  /-- `self.myllmodel.solve("linear", aero_state, control_state)` -/
  wingSolve : AeroDict ι → Option CtrlDict → Act σ (Sol ι)
  /-- `self.myllmodel._find_stall_location()` -/
  stallLoc : σ → Option StallInfo
  /-- what a `solve` with an angle of attack that is `nan` or `inf` does -/
  solveBad : Act σ (Option Loads)

/-- `stall_info` (`MU.py:570-573`) -/
structure StallResult where
  wing : String
  span : ℝ
  alpha : ℝ
  lift : ℝ

/-- nine non-dimensional derivatives with respect to one variable (`MU.py:806-814`) -/
@[ext] structure Deriv where
  CL : ℝ
  CD : ℝ
  CS : ℝ
  CX : ℝ
  CY : ℝ
  CZ : ℝ
  Cl : ℝ
  Cm : ℝ
  Cn : ℝ

/-- `stab_deriv`; `none` for derivatives that are `nan`/`inf` (`MU.py:756-840`) -/
structure StabDeriv where
  a : Option Deriv
  b : Option Deriv

/-- `damp_deriv` (`MU.py:842-950`) -/
structure DampDeriv where
  p : Option Deriv
  q : Option Deriv
  r : Option Deriv

/-- `cont_deriv` (`MU.py:952-1072`) -/
structure ContDeriv where
  da : Option Deriv
  de : Option Deriv
  dr : Option Deriv
  df : Option Deriv

/-- the documents the methods write with `json.dump` (`MU.py:188`, `370`, `514`, `590`, `685`, `751`, `1169`, `1240`, `1248`, `1264`) -/
inductive Doc (ι : Type)
  | solve (wing : Option (Sol ι)) (prop : Option PropTotals) (total : Loads)
  | stall (r : StallResult)
  | airspeed (r : StallResult) (v : ℝ)
  | target (alpha : ℝ)
  | trim (alpha elevator : ℝ)
  | derivs (s : StabDeriv) (margin : Option ℝ) (c : ContDeriv) (d : DampDeriv)
  | center (x z : ℝ)
  | error (msg : String)

/-- The state the methods work on. (the attributes of `MU.py:62-99` and the arguments of `MU.py:101`) -/
structure World {ι : Type} (B : Backend ι) where
  /-- the solver objects -/
  st : B.σ
  /-- the object passed as `aero_state`: `None` or the dictionary -/
  aero : Option (AeroDict ι)
  /-- the object passed as `control_state` -/
  ctrl : Option CtrlDict
  /-- the `total_results` dictionaries created so far, in order of creation -/
  objs : List Loads := []
  /-- the files written so far -/
  files : List (String × Doc ι) := []

variable {ι : Type} {B : Backend ι}

/-- run a solver method on the solver objects (`MU.py:152-158`) -/
def onSolver {α : Type} (m : Act B.σ α) : Act (World B) α := fun w =>
  match m w.st with
  | (r, st) => (r, { w with st := st })

/-- `aero_state[key] = value` (`TypeError` for `None`) (for example `MU.py:425`, `802`) -/
def setAero (f : AeroDict ι → AeroDict ι) : Act (World B) Unit := fun w =>
  match w.aero with
  | some d => (.ok (), { w with aero := some (f d) })
  | none => (.error .type, w)

/-- `control_state[key] = value` (`TypeError` for `None`) (for example `MU.py:999`) -/
def setCtrl (f : CtrlDict → CtrlDict) : Act (World B) Unit := fun w =>
  match w.ctrl with
  | some d => (.ok (), { w with ctrl := some (f d) })
  | none => (.error .type, w)

/-- `aero_state.get(key, default)` (`AttributeError` for `None`) (for example `MU.py:418-419`, `796`) -/
def getAero {α : Type} (f : AeroDict ι → α) : Act (World B) α := fun w =>
  match w.aero with
  | some d => (.ok (f d), w)
  | none => (.error .attribute, w)

/-- `control_state.get(key, default)` (`AttributeError` for `None`) (for example `MU.py:998`) -/
def getCtrl {α : Type} (f : CtrlDict → α) : Act (World B) α := fun w =>
  match w.ctrl with
  | some d => (.ok (f d), w)
  | none => (.error .attribute, w)

/-- truth value of the `aero_state` argument (for example `MU.py:564`, `1123`) -/
def aeroGiven (w : World B) : Bool := w.aero.any AeroDict.truthy

/-- truth value of the `control_state` argument (`MU.py:1226`) -/
def ctrlGiven (w : World B) : Bool := w.ctrl.any CtrlDict.truthy

/-- Run `m` with another object as `aero_state`; the caller's object is untouched.  Also returns the final content of the
other object. (for example `MU.py:1124-1125`, `1161-1165`) -/
def withAero {α : Type} (d : AeroDict ι) (m : Act (World B) α) : Act (World B) (α × AeroDict ι) := fun w =>
  match m { w with aero := some d } with
  | (.ok a, w') => (.ok (a, w'.aero.getD d), { w' with aero := w.aero })
  | (.error e, w') => (.error e, { w' with aero := w.aero })

/-- Run `m` with another object as `control_state`; the caller's object is untouched. (for example `MU.py:1270-1274`) -/
def withCtrl {α : Type} (c : CtrlDict) (m : Act (World B) α) : Act (World B) α := fun w =>
  match m { w with ctrl := some c } with
  | (r, w') => (r, { w' with ctrl := w.ctrl })

/-- `json.dump` to a file, if a filename is given.  `if filename` treats the empty string like no filename; it is not modelled as a name. (for example `MU.py:186-188`, `588-590`) -/
def writeFile (filename : Option String) (doc : Doc ι) : Act (World B) Unit :=
  match filename with
  | none => Act.ret ()
  | some f => Act.change fun w => { w with files := w.files ++ [(f, doc)] }

/-- all entries zero: what `.get(key, 0)` on an empty dictionary gives (`MU.py:160-173`) -/
def Loads.zero : Loads := ⟨0, 0, 0, 0, 0, 0, 0, 0, 0⟩

/-- `total_results[key] = prop_total.get(key,0) + wing_total.get(key,0)` (`MU.py:160-173`) -/
def totalOf (prop : Option PropTotals) (wing : Option (Sol ι)) : Loads :=
  ((prop.map (·.loads)).getD Loads.zero).add ((wing.map (·.total)).getD Loads.zero)

/-- the propeller part of `solve` (`MU.py:152-155`): the velocity field is stored in the caller's `aero_state` -/
def solveProps (ps : Option B.π) (d : AeroDict ι) : Act (World B) (Option PropTotals) :=
  if B.hasProps then do
    let (r, field) ← onSolver (B.propSolve d ps)
    match field with
    | some f => setAero fun d => { d with localState := some f }
    | none => Act.ret ()
    return some r
  else return none

/-- the wing part of `solve` (`MU.py:157-158`) -/
def solveWings : Act (World B) (Option (Sol ι)) :=
  if B.hasWings then do
    let w ← Act.get
    let r ← onSolver (B.wingSolve (w.aero.getD {}) w.ctrl)
    return some r
  else return none

/-- `solve` with a non-empty `aero_state` (`MU.py:148-173`): the three results. -/
def solveParts (ps : Option B.π) : Act (World B) (Option (Sol ι) × Option PropTotals × Loads) := do
  let d ← getAero id
  let prop ← solveProps ps d
  let wing ← solveWings
  let total := totalOf prop wing
  Act.change fun w => { w with objs := w.objs ++ [total] }
  return (wing, prop, total)

/-- the default state (`MU.py:176-178`) -/
noncomputable def defaultAeroDict : AeroDict ι := { Vmag := some 10, rho := some 0.0023769, alpha := some 0 }

/-- `solve(aero_state, control_state, prop_state)` without a filename (`MU.py:147-190`). -/
noncomputable def muSolve (ps : Option B.π) : Act (World B) Loads := do
  let w ← Act.get
  if aeroGiven w then
    let (_, _, total) ← solveParts ps
    return total
  else
    let ((_, _, total), _) ← withAero defaultAeroDict (solveParts ps)
    return total

/-- `solve(..., filename)` (`MU.py:147-190`).  Without an `aero_state` the names `wing_results` and `prop_results` are
unbound when the file is to be written. -/
noncomputable def muSolveFile (ps : Option B.π) (filename : Option String) : Act (World B) Loads := do
  let w ← Act.get
  if aeroGiven w then
    let (wing, prop, total) ← solveParts ps
    writeFile filename (.solve wing prop total)
    return total
  else
    let total ← muSolve ps
    match filename with
    | none => return total
    | some _ => Act.raise .unbound

/-! ### Derivatives -/

open Classical in
/-- the nine non-dimensional differences `(forw - back)/k` and `/lat_ref`, `/long_ref`; `none` if a divisor is zero
(`MU.py:806-814`, `823-831`, `895-903`, `914-922`, `932-940`, `1003-1011` etc.) -/
noncomputable def derivOf (B : Backend ι) (forw back : Loads) (k : ℝ) : Option Deriv :=
  if k = 0 ∨ B.lat = 0 ∨ B.long = 0 then none
  else some
    { CL := (forw.FL - back.FL) / k, CD := (forw.FD - back.FD) / k, CS := (forw.FS - back.FS) / k
      CX := (forw.FX - back.FX) / k, CY := (forw.FY - back.FY) / k, CZ := (forw.FZ - back.FZ) / k
      Cl := (forw.MX - back.MX) / k / B.lat, Cm := (forw.MY - back.MY) / k / B.long
      Cn := (forw.MZ - back.MZ) / k / B.lat }

/-- `aero_state["alpha"] = x` (`MU.py:425`, `568`, `802-815`, `1231`, `1295-1300`, `1318-1323`) -/
def setAlpha (x : ℝ) : Act (World B) Unit := setAero fun d => { d with alpha := some x }
/-- `aero_state["beta"] = x` (`MU.py:819-832`) -/
def setBeta (x : ℝ) : Act (World B) Unit := setAero fun d => { d with beta := some x }
/-- `aero_state["roll_rate"] = x` (`MU.py:891-904`) -/
def setRoll (x : ℝ) : Act (World B) Unit := setAero fun d => { d with roll := some x }
/-- `aero_state["pitch_rate"] = x` (`MU.py:910-923`) -/
def setPitch (x : ℝ) : Act (World B) Unit := setAero fun d => { d with pitch := some x }
/-- `aero_state["yaw_rate"] = x` (`MU.py:928-941`) -/
def setYaw (x : ℝ) : Act (World B) Unit := setAero fun d => { d with yaw := some x }
/-- `control_state["aileron"] = x` (`MU.py:999-1012`) -/
def setAileron (x : ℝ) : Act (World B) Unit := setCtrl fun d => { d with aileron := some x }
/-- `control_state["elevator"] = x` (`MU.py:1016-1029`, `1232`, `1304-1309`, `1327-1332`) -/
def setElevator (x : ℝ) : Act (World B) Unit := setCtrl fun d => { d with elevator := some x }
/-- `control_state["rudder"] = x` (`MU.py:1033-1046`) -/
def setRudder (x : ℝ) : Act (World B) Unit := setCtrl fun d => { d with rudder := some x }
/-- `control_state["flap"] = x` (`MU.py:1050-1063`) -/
def setFlap (x : ℝ) : Act (World B) Unit := setCtrl fun d => { d with flap := some x }

/-- the backward and the forward solve of a central difference:
`state[key] = x0-delta; back = self.solve(...); state[key] = x0+delta; forw = self.solve(...)`
(`MU.py:802-805`, `819-822`, `891-894`, `910-913`, `928-931`, `999-1002` etc.); returns (forw, back). -/
noncomputable def central (ps : Option B.π) (set : ℝ → Act (World B) Unit) (x0 delta : ℝ) :
    Act (World B) (Loads × Loads) := do
  set (x0 - delta)
  let back ← muSolve ps
  set (x0 + delta)
  let forw ← muSolve ps
  return (forw, back)

/-- `0.5*rho*V**2*Sw` with the defaults of `MU.py:796`, `882-883`, `992` -/
noncomputable def dynPress (B : Backend ι) (d : AeroDict ι) : ℝ :=
  0.5 * d.rho.getD 0.0023769 * d.Vmag.getD 10 ^ 2 * B.Sw

/-- `DP` (`MU.py:796`, `883`, `992`): `self.Sw` does not exist for a plane without wings (`AttributeError`). -/
noncomputable def dynPressure : Act (World B) ℝ :=
  if B.hasWings then getAero (dynPress B) else Act.raise .attribute

/-- `stability_derivatives` with a non-empty `aero_state` (`MU.py:796-832`) -/
noncomputable def stabBody (ps : Option B.π) : Act (World B) StabDeriv := do
  let DP ← dynPressure
  let delta : ℝ := 0.5
  let deltaRad := rad delta
  let a0 ← getAero fun d => d.alpha.getD 0
  let (forw, back) ← central ps setAlpha a0 delta
  let da := derivOf B forw back (2 * deltaRad * DP)
  setAlpha a0
  let b0 ← getAero fun d => d.beta.getD 0
  let (forw, back) ← central ps setBeta b0 delta
  let db := derivOf B forw back (2 * deltaRad * DP)
  setBeta b0
  return ⟨da, db⟩

/-- `stability_derivatives` (`MU.py:793-840`); `/2/delta_rad/DP` is written as one division. -/
noncomputable def stabilityDerivatives (ps : Option B.π) : Act (World B) StabDeriv := do
  let w ← Act.get
  if aeroGiven w then stabBody ps
  else
    let (r, _) ← withAero defaultAeroDict (stabBody ps)
    return r

open Classical in
/-- `damping_derivatives` with a non-empty `aero_state` (`MU.py:882-941`).  A zero reference length (division by zero in
the rate steps) is reported as `.nonfinite` at once. -/
noncomputable def dampBody (ps : Option B.π) : Act (World B) DampDeriv := do
  let V ← getAero fun d => d.Vmag.getD 10
  let DP ← dynPressure
  if B.lat = 0 ∨ B.long = 0 then Act.raise .nonfinite
  else
    let delta : ℝ := 0.005
    let dp := delta * 2 * V / B.lat
    let nonDim := 2 * delta * DP
    let p0 ← getAero fun d => d.roll.getD 0
    let (forw, back) ← central ps setRoll p0 dp
    let Dp := derivOf B forw back nonDim
    setRoll p0
    let dq := delta * 2 * V / B.long
    let q0 ← getAero fun d => d.pitch.getD 0
    let (forw, back) ← central ps setPitch q0 dq
    let Dq := derivOf B forw back nonDim
    setPitch q0
    let dr := delta * 2 * V / B.lat
    let r0 ← getAero fun d => d.yaw.getD 0
    let (forw, back) ← central ps setYaw r0 dr
    let Dr := derivOf B forw back nonDim
    setYaw q0
    return ⟨Dp, Dq, Dr⟩

/-- `damping_derivatives` (`MU.py:879-948`) -/
noncomputable def dampingDerivatives (ps : Option B.π) : Act (World B) DampDeriv := do
  let w ← Act.get
  if aeroGiven w then dampBody ps
  else
    let (r, _) ← withAero { Vmag := some 10, rho := some 0.0023769 } (dampBody ps)
    return r

/-- `control_derivatives` with a non-empty `control_state` (`MU.py:992-1063`) -/
noncomputable def contBody (ps : Option B.π) : Act (World B) ContDeriv := do
  let DP ← dynPressure
  let delta : ℝ := 0.25
  let deltaRad := rad delta
  let a0 ← getCtrl fun d => d.aileron.getD 0
  let (forw, back) ← central ps setAileron a0 delta
  let da := derivOf B forw back (2 * deltaRad * DP)
  setAileron a0
  let e0 ← getCtrl fun d => d.elevator.getD 0
  let (forw, back) ← central ps setElevator e0 delta
  let de := derivOf B forw back (2 * deltaRad * DP)
  setElevator e0
  let r0 ← getCtrl fun d => d.rudder.getD 0
  let (forw, back) ← central ps setRudder r0 delta
  let dr := derivOf B forw back (2 * deltaRad * DP)
  setRudder r0
  let f0 ← getCtrl fun d => d.flap.getD 0
  let (forw, back) ← central ps setFlap f0 delta
  let df := derivOf B forw back (2 * deltaRad * DP)
  setFlap f0
  return ⟨da, de, dr, df⟩

/-- the default control state (`MU.py:1066-1069`) -/
def zeroCtrlDict : CtrlDict := { aileron := some 0, elevator := some 0, rudder := some 0, flap := some 0 }

/-- `control_derivatives` (`MU.py:989-1072`) -/
noncomputable def controlDerivatives (ps : Option B.π) : Act (World B) ContDeriv := do
  let w ← Act.get
  if ctrlGiven w then contBody ps
  else withCtrl zeroCtrlDict (contBody ps)

/-- the dictionary `derivatives` returns (`MU.py:689-754`) -/
structure AllDerivs where
  stab : StabDeriv
  /-- `static_margin`; `none` if `nan`/`inf` -/
  margin : Option ℝ
  cont : ContDeriv
  damp : DampDeriv

open Classical in
/-- `-stab_deriv["Cm_a"]/stab_deriv["CL_a"]` (`MU.py:734`) -/
noncomputable def staticMargin (s : StabDeriv) : Option ℝ :=
  match s.a with
  | some d => if d.CL = 0 then none else some (-d.Cm / d.CL)
  | none => none

/-- `derivatives` (`MU.py:732-753`); `none` is the dictionary `{"error": "underivable"}`. -/
noncomputable def derivatives (ps : Option B.π) (filename : Option String) : Act (World B) (Option AllDerivs) := do
  if B.hasWings then
    let s ← stabilityDerivatives ps
    let m := staticMargin s
    let c ← controlDerivatives ps
    let d ← dampingDerivatives ps
    writeFile filename (.derivs s m c d)
    return some ⟨s, m, c, d⟩
  else
    match filename with
    | some _ =>
      writeFile filename (.error "underivable")
      return none
    | none => Act.raise .runtime

/-! ### Stall -/

/-- `round(a, 2)` (`MU.py:572`) -/
noncomputable def round2 (a : ℝ) : ℝ := (⌊100 * a + 1 / 2⌋ : ℤ) / 100

/-- the sweep of `stall_onset` (`MU.py:566-575`) from angle `a`, with at most `fuel` solves; `none`: fuel exhausted -/
noncomputable def stallLoop (ps : Option B.π) : ℕ → ℝ → Act (World B) (Option StallResult)
  | 0, _ => Act.ret none
  | fuel + 1, a => do
    setAlpha a
    let results ← Act.tryFinite (muSolve ps)
    let w ← Act.get
    match B.stallLoc w.st with
    | some s =>
      match results with
      | some r => return some ⟨s.wing, s.span, round2 a, r.FL⟩
      | none => Act.raise .nonfinite
    | none => stallLoop ps fuel (a + 0.1)

/-- `stall_onset` of a plane with wings (`MU.py:564-580`): `none` means that the sweep is still going on after `fuel`
solves. -/
noncomputable def stallOnset (ps : Option B.π) (fuel : ℕ) : Act (World B) (Option StallResult) := do
  let w ← Act.get
  if aeroGiven w then stallLoop ps fuel 0
  else
    let (r, _) ← withAero defaultAeroDict (stallLoop ps fuel 0)
    return r

/-- what `stall_onset` and `stall_airspeed` return (`MU.py:572-573`, `584`, `661-662`, `679`) -/
inductive StallAnswer
  | stalled (r : StallResult)
  | airspeed (r : StallResult) (v : ℝ)
  /-- `{"error": "unstallable"}` -/
  | unstallable

/-- `stall_onset` (`MU.py:563-591`) -/
noncomputable def stallOnsetFile (ps : Option B.π) (filename : Option String) (fuel : ℕ) :
    Act (World B) (Option StallAnswer) := do
  if B.hasWings then
    match ← stallOnset ps fuel with
    | none => return none
    | some r =>
      writeFile filename (.stall r)
      return some (.stalled r)
  else
    match filename with
    | some _ =>
      writeFile filename (.error "unstallable")
      return some .unstallable
    | none => Act.raise .runtime

/-- `dict[key]` (`MU.py:645`, `1126`) -/
def needKey {α : Type} (o : Option α) : Act (World B) α :=
  match o with
  | some a => Act.ret a
  | none => Act.raise .key

open Classical in
/-- the secant iteration of `stall_airspeed` (`MU.py:655-671`), with at most `fuel` iterations; `aero1` is the object
`aero1`.  A vanishing `y1-y0` is reported as `.nonfinite` (the code then iterates on `nan`/`inf`). -/
noncomputable def airspeedLoop (ps : Option B.π) (weight error : ℝ) (sweep : ℕ) :
    ℕ → ℝ → ℝ → ℝ → ℝ → StallResult → AeroDict ι → Act (World B) (Option (StallResult × ℝ))
  | 0, _, _, _, _, _, _ => Act.ret none
  | fuel + 1, x0, y0, x1, y1, s1, aero1 => do
    if y1 - y0 = 0 then Act.raise .nonfinite
    else
      let x2 := x1 - y1 * (x1 - x0) / (y1 - y0)
      if |x2 - x1| < error then return some (s1, x2)
      else
        let (r, aero1) ← withAero { aero1 with Vmag := some x2 } (stallOnset ps sweep)
        match r with
        | none => return none
        | some s2 => airspeedLoop ps weight error sweep fuel x1 y1 x2 (s2.lift - weight) s2 aero1

/-- `stall_airspeed` of a plane with wings with a non-empty `aero_state` (`MU.py:643-671`) -/
noncomputable def airspeedBody (ps : Option B.π) (weight error : ℝ) (fuel sweep : ℕ) :
    Act (World B) (Option (StallResult × ℝ)) := do
  let d ← getAero id
  let x0 ← needKey d.Vmag
  let x1 := x0 * 1.5 + 0.1
  let (s0, _) ← withAero { d with Vmag := some x0 } (stallOnset ps sweep)
  let (s1, aero1) ← withAero { d with Vmag := some x1 } (stallOnset ps sweep)
  match s0, s1 with
  | some s0, some s1 => airspeedLoop ps weight error sweep fuel x0 (s0.lift - weight) x1 (s1.lift - weight) s1 aero1
  | _, _ => return none

/-- the objects that end up as arguments of `stall_airspeed` when `self` is passed twice (`MU.py:676`) -/
inductive PyArg
  /-- a Python number -/
  | num (x : ℝ)
  /-- the `MachUp` object -/
  | self

open Classical in
/-- truth value: a number is true iff it is not zero, a `MachUp` object is true (the class defines no `__bool__` or
`__len__`) (`MU.py:642`, `676`, `683`) -/
noncomputable def PyArg.truthy : PyArg → Bool
  | .num x => decide (x ≠ 0)
  | .self => true

/-- The call `self.stall_airspeed(weight, aero_state, …)` (`MU.py:641-676`) with an `aero_state` that is not a dictionary,
with at most `depth` nested calls: a true `aero_state` is copied, but neither numbers nor `MachUp` objects have a method
`copy` (`AttributeError`; a numpy number has one, but then its `["V_mag"]` raises `IndexError` — not distinguished here);
for a false one the call is `self.stall_airspeed(self, weight, …)`. -/
noncomputable def airspeedMisused : ℕ → PyArg → PyArg → PyErr
  | 0, _, _ => .recursion
  | depth + 1, weight, aero => if aero.truthy then .attribute else airspeedMisused depth .self weight

/-- `stall_airspeed` (`MU.py:641-687`).  Without an `aero_state` the recursive call (line 676) passes `self` twice: its
`weight` is the `MachUp` object and its `aero_state` the number `weight`. -/
noncomputable def stallAirspeed (ps : Option B.π) (weight error : ℝ) (filename : Option String) (fuel sweep : ℕ) :
    Act (World B) (Option StallAnswer) := do
  if B.hasWings then
    let w ← Act.get
    if aeroGiven w then
      match ← airspeedBody ps weight error fuel sweep with
      | none => return none
      | some (s, v) =>
        writeFile filename (.airspeed s v)
        return some (.airspeed s v)
    else
      Act.raise (airspeedMisused 1000 .self (.num weight))
  else
    match filename with
    | some _ =>
      writeFile filename (.error "unstallable")
      return some .unstallable
    | none => Act.raise .runtime

/-! ### Target lift -/

/-- what `target_lift` and `pitch_trim` return; `nothing` is `None` (`MU.py:1143`, `1156`, `1236-1237`, `1246`, `1262`) -/
inductive TrimAnswer
  | alpha (a : ℝ)
  | trim (a de : ℝ)
  /-- `{"error": msg}` -/
  | error (msg : String)
  | nothing

/-- One solve of `target_lift` with the angle `x` (`none`: `nan`/`inf`) in the object `aero1`: the lift (`none`:
`nan`/`inf`) and the new content of `aero1`. (`MU.py:1131-1134`, `1150-1152`) -/
noncomputable def liftAt (ps : Option B.π) (aero1 : AeroDict ι) (x : Option ℝ) :
    Act (World B) (Option ℝ × AeroDict ι) :=
  match x with
  | some a => do
    let (r, aero1) ← withAero { aero1 with alpha := some a } (Act.tryFinite (muSolve ps))
    return (r.map (·.FL), aero1)
  | none => do
    let r ← onSolver B.solveBad
    return (r.map (·.FL), aero1)

open Classical in
/-- `x1 - y1*(x1-x0)/(y1-y0)` on numbers that may be `nan`/`inf`: the result is a number only if all arguments are and
`y1 ≠ y0` (`MU.py:1139`; the lifts are numpy numbers, so division by zero does not raise). -/
noncomputable def secant (x0 y0 x1 y1 : Option ℝ) : Option ℝ :=
  match x0, y0, x1, y1 with
  | some x0, some y0, some x1, some y1 => if y1 - y0 = 0 then none else some (x1 - y1 * (x1 - x0) / (y1 - y0))
  | _, _, _, _ => none

open Classical in
/-- `abs(x2-x1)<error`; false if one of them is `nan`/`inf` (`MU.py:659`, `1141`) -/
noncomputable def closeTo (x2 x1 : Option ℝ) (error : ℝ) : Bool :=
  match x2, x1 with
  | some x2, some x1 => decide (|x2 - x1| < error)
  | _, _ => false

/-- the secant iteration of `target_lift` (`MU.py:1136-1159`); `left` is `21 - iters`.  `none`: not converged. -/
noncomputable def targetLoop (ps : Option B.π) (L error : ℝ) :
    ℕ → Option ℝ → Option ℝ → Option ℝ → Option ℝ → AeroDict ι → Act (World B) (Option ℝ)
  | 0, _, _, _, _, _ => Act.ret none
  | left + 1, x0, y0, x1, y1, aero1 => do
    let x2 := secant x0 y0 x1 y1
    if closeTo x2 x1 error then return x2
    else
      let (y2, aero1) ← liftAt ps aero1 x2
      let y2 := y2.map (· - L)
      if left = 0 then return none
      else targetLoop ps L error left x1 y1 x2 y2 aero1

/-- `target_lift` with a non-empty `aero_state` (`MU.py:1124-1159`): the angle, or `none` for "unable" -/
noncomputable def targetBody (ps : Option B.π) (L error : ℝ) : Act (World B) (Option ℝ) := do
  let d ← getAero id
  let x0 ← needKey d.alpha
  let x1 := x0 * 1.5 + 0.1
  let (FM0, _) ← liftAt ps d (some x0)
  let (FM1, aero1) ← liftAt ps d (some x1)
  targetLoop ps L error 21 (some x0) (FM0.map (· - L)) (some x1) (FM1.map (· - L)) aero1

/-- `target_lift` (`MU.py:1123-1171`).  The default branch drops `error` and `filename`. -/
noncomputable def targetLift (ps : Option B.π) (L error : ℝ) (filename : Option String) : Act (World B) TrimAnswer := do
  let w ← Act.get
  if aeroGiven w then
    match ← targetBody ps L error with
    | some a =>
      writeFile filename (.target a)
      return .alpha a
    | none =>
      match filename with
      | some _ =>
        writeFile filename (.error "unliftable")
        return .error "unliftable"
      | none => Act.raise .runtime
  else
    let (r, _) ← withAero defaultAeroDict (targetBody ps L (10 * 10 ^ (-10 : ℤ)))
    match r with
    | some a =>
      writeFile filename (.target a)
      return .alpha a
    | none => Act.raise .runtime

/-! ### Pitch trim -/

/-- `_lift_slope` and `_moment_slope` (`MU.py:1290-1334`) for the result entry `f` -/
noncomputable def slopes (ps : Option B.π) (f : Loads → ℝ) : Act (World B) (ℝ × ℝ) := do
  let delta : ℝ := 0.25
  let a0 ← getAero fun d => d.alpha.getD 0
  let (forw, back) ← central ps setAlpha a0 delta
  let fa := (f forw - f back) / rad (2 * delta)
  setAlpha a0
  let e0 ← getCtrl fun d => d.elevator.getD 0
  let (forw, back) ← central ps setElevator e0 delta
  let fe := (f forw - f back) / rad (2 * delta)
  setElevator e0
  return (fa, fe)

/-- `np.degrees` (`MU.py:1256`) -/
noncomputable def deg (r : ℝ) : ℝ := r * 180 / Real.pi

open Classical in
/-- the iteration of `pitch_trim` (`MU.py:1228-1267`); `left` is `101 - iters`.
`np.linalg.inv` of a 2×2 matrix: `LinAlgError` if the determinant is zero. -/
noncomputable def trimLoop (ps : Option B.π) (L M error : ℝ) (filename : Option String) :
    ℕ → ℝ → ℝ → Act (World B) TrimAnswer
  | 0, _, _ => Act.ret .nothing
  | left + 1, a, de => do
    setAlpha a
    setElevator de
    let current ← muSolve ps
    let F0 := current.FL - L
    let F1 := current.MY - M
    if |F0| < error ∧ |F1| < error then
      writeFile filename (.trim a de)
      return .trim a de
    else
      let (La, Lde) ← slopes ps (·.FL)
      let (ma, mde) ← slopes ps (·.MY)
      if Lde = 0 ∧ mde = 0 then
        match filename with
        | some _ =>
          writeFile filename (.error "no_elevator")
          return .nothing
        | none => Act.raise .runtime
      else if La * mde - Lde * ma = 0 then Act.raise .linAlg
      else
        let det := La * mde - Lde * ma
        let a := a + deg ((mde * (-F0) - Lde * (-F1)) / det)
        let de := de + deg ((-ma * (-F0) + La * (-F1)) / det)
        if left = 0 then
          match filename with
          | some _ =>
            writeFile filename (.error "untrimmable")
            return .nothing
          | none => Act.raise .runtime
        else trimLoop ps L M error filename left a de

/-- the default value of `error`: `10E-10` (`MU.py:593`, `1074`, `1174`) -/
noncomputable def defaultError : ℝ := 10 * 10 ^ (-10 : ℤ)

/-- `pitch_trim` (`MU.py:1226-1288`).  The default branches pass neither `filename` nor `error` on. -/
noncomputable def pitchTrim (ps : Option B.π) (L M error : ℝ) (filename : Option String) : Act (World B) TrimAnswer := do
  let w ← Act.get
  if aeroGiven w then
    if ctrlGiven w then trimLoop ps L M error filename 101 0 0
    else withCtrl zeroCtrlDict (trimLoop ps L M defaultError none 101 0 0)
  else if ctrlGiven w then
    let (r, _) ← withAero { Vmag := some 10, rho := some 0.0023769 } (trimLoop ps L M defaultError none 101 0 0)
    return r
  else
    let (r, _) ← withAero { Vmag := some 10, rho := some 0.0023769 }
      (withCtrl zeroCtrlDict (trimLoop ps L M defaultError none 101 0 0))
    return r

end Verif
