import Verif.Base.Py
import Verif.Model.LL

/-!
# Model of the `LLModel` object (`machup/llmodel.py`): state, argument processing and `solve`
-/

namespace Verif
open V3

/-- An `aero_state` dictionary.  An absent key is `none`; `other` says whether there is any further key
(which only matters for the truth value of the dictionary).
`local_state` (rows `rho, vx, vy, vz`) is indexed by section; a wrong shape (numpy error) is not modelled. (`llmodel.py:156-230`) -/
structure AeroDict (ι : Type*) where
  Vmag : Option ℝ := none
  rho : Option ℝ := none
  alpha : Option ℝ := none
  beta : Option ℝ := none
  roll : Option ℝ := none
  pitch : Option ℝ := none
  yaw : Option ℝ := none
  localState : Option (ι → ℝ × V3) := none
  other : Bool := false

/-- A `control_state` dictionary. (`llmodel.py:232-246`) -/
structure CtrlDict where
  aileron : Option ℝ := none
  elevator : Option ℝ := none
  rudder : Option ℝ := none
  flap : Option ℝ := none
  other : Bool := false

variable {ι : Type*}

/-- Python truth value of the dictionary: non-empty. (`llmodel.py:161`) -/
def AeroDict.truthy (d : AeroDict ι) : Bool :=
  d.Vmag.isSome || d.rho.isSome || d.alpha.isSome || d.beta.isSome || d.roll.isSome || d.pitch.isSome ||
    d.yaw.isSome || d.localState.isSome || d.other

/-- Python truth value of the dictionary: non-empty. (`llmodel.py:234`) -/
def CtrlDict.truthy (d : CtrlDict) : Bool :=
  d.aileron.isSome || d.elevator.isSome || d.rudder.isSome || d.flap.isSome || d.other

/-- What `LLModel` keeps of the plane: the grid records and the CG (`llmodel.py:87-88`, `llgrid.py` getters). -/
structure LLGeom (ι : Type*) where
  cg : V3
  S : ι → Section

/-- The mutable part of an `LLModel` object (`llmodel.py:85-122`).  `none` for a velocity or direction array means
that it contains `nan`/`inf`. The rates are stored but never read by the code. -/
structure LLState (ι : Type*) where
  /-- `_aero_data["v_loc"]` -/
  v : Option (ι → V3)
  /-- `_aero_data["u_inf"]` -/
  u : Option V3
  /-- `_aero_data["rho_loc"]` -/
  rho : ι → ℝ
  /-- `_aero_data["roll_rate" | "pitch_rate" | "yaw_rate"]` -/
  rates : V3
  /-- `_control_data` -/
  ctrl : Ctrl ι
  /-- contents of the `_results` dictionaries, distributions and section coefficients after the last linear solve
  (`none`: no linear solve has produced finite numbers yet) -/
  results : Option (Sol ι)

/-- `LLModel.__init__` (`llmodel.py:89-120`). -/
def LLState.init (ι : Type*) : LLState ι where
  v := some fun _ => 0
  u := some 0
  rho := fun _ => 1
  rates := 0
  ctrl := ⟨fun _ => 0, fun _ => 0⟩
  results := none

/-- degrees to radians, `*np.pi/180.` (`llmodel.py:166-167`, `190-191`, `244`) -/
noncomputable def rad (d : ℝ) : ℝ := d * Real.pi / 180

open Classical in
/-- The freestream velocity from `V_mag`, `alpha`, `beta` in degrees (`llmodel.py:165-175`, `188-198`);
`none` if `np.sqrt(1.-s_a*s_a*s_b*s_b)` is zero. -/
noncomputable def freestream (V alpha beta : ℝ) : Option V3 :=
  let a := rad alpha
  let b := rad beta
  let ca := Real.cos a
  let sa := Real.sin a
  let cb := Real.cos b
  let sb := Real.sin b
  let d := Real.sqrt (1 - sa * sa * sb * sb)
  if d = 0 then none
  else some ⟨V / d * (-ca * cb), V / d * (-ca * sb), V / d * (-sa * cb)⟩

open Classical in
/-- `v/np.linalg.norm(v)`; `none` if the norm is zero (`llmodel.py:176`, `180-182`, `200`). -/
noncomputable def normalise (v : V3) : Option V3 := if nrm v = 0 then none else some (unit v)

/-- `np.mean(v_local, axis=0)`; `none` for no sections (`llmodel.py:179`). -/
noncomputable def meanV [Fintype ι] (v : ι → V3) : Option V3 :=
  if Fintype.card ι = 0 then none else some ((1 / (Fintype.card ι : ℝ)) • ∑ i, v i)

/-- `_superimpose_rotation` (`llmodel.py:216-230`). -/
noncomputable def superimpose (G : LLGeom ι) (d : AeroDict ι) (st : LLState ι) : LLState ι :=
  let rates : V3 := ⟨d.roll.getD 0, d.pitch.getD 0, d.yaw.getD 0⟩
  { st with
    rates := rates
    v := st.v.map fun v i => v i - cross rates ((G.S i).rcp - G.cg) }

/-- the test of `llmodel.py:204-206` -/
def AeroDict.hasRates (d : AeroDict ι) : Bool := d.roll.isSome || d.pitch.isSome || d.yaw.isSome

/-- `_process_aero_state` (`llmodel.py:156-214`).  `none` is Python's `None`. -/
noncomputable def processAero [Fintype ι] (G : LLGeom ι) (st : LLState ι) (state : Option (AeroDict ι)) :
    Except PyErr Unit × LLState ι :=
  match state with
  | some d =>
    if d.truthy then
      let rot (st : LLState ι) : LLState ι := if d.hasRates then superimpose G d st else st
      match d.localState with
      | some ls =>
        let v : ι → V3 := fun i => (ls i).2
        let rho : ι → ℝ := fun i => (ls i).1
        match d.Vmag with
        | some V =>
          let u := (freestream V (d.alpha.getD 0) (d.beta.getD 0)).bind normalise
          (.ok (), rot { st with v := some v, rho := rho, u := u })
        | none =>
          let u := (meanV v).bind normalise
          (.ok (), rot { st with v := some v, rho := rho, u := u })
      | none =>
        match d.Vmag with
        | none => (.error .runtime, st)
        | some V =>
          match d.rho with
          | none => (.error .runtime, st)
          | some rho =>
            let vxyz := freestream V (d.alpha.getD 0) (d.beta.getD 0)
            (.ok (), rot { st with
              v := vxyz.map fun w _ => w
              u := vxyz.bind normalise
              rho := fun _ => rho })
    else defaultAero st
  | none => defaultAero st
where
  /-- the branch for a missing or empty dictionary (`llmodel.py:211-214`): only the x components are written -/
  defaultAero (st : LLState ι) : Except PyErr Unit × LLState ι :=
    (.ok (), { st with
      v := st.v.map fun v i => ⟨-10, (v i).y, (v i).z⟩
      u := st.u.map fun u => ⟨-1, u.y, u.z⟩ })

open Classical in
/-- `_compute_deflection_efficiency` (`llmodel.py:248-258`). -/
noncomputable def deflEff (delta : ℝ) : ℝ :=
  let dabs := |delta| * 180 / Real.pi
  if dabs > 11 then -8.71794871794872e-3 * dabs + 1.09589743589744 else 1

/-- `_process_control_state` (`llmodel.py:232-246`). -/
noncomputable def processCtrl (G : LLGeom ι) (st : LLState ι) (state : Option CtrlDict) : LLState ι :=
  match state with
  | some d =>
    if d.truthy then
      let delta : ι → ℝ := fun i =>
        (d.aileron.getD 0 * (G.S i).mixA + d.elevator.getD 0 * (G.S i).mixE +
          d.rudder.getD 0 * (G.S i).mixR + d.flap.getD 0 * (G.S i).mixF) * Real.pi / 180
      { st with ctrl := ⟨delta, fun i => deflEff (delta i)⟩ }
    else st
  | none => st

/-- the pseudo-exceptions of the kernel as Python outcomes (`llmodel.py:301-306`) -/
def LLErr.toPy : LLErr → PyErr
  | .divZero => .nonfinite
  | .singular => .linAlg

/-- The linear branch of `solve` on the arrays held by the object (`llmodel.py:301-306`). -/
noncomputable def runLinear [Fintype ι] [DecidableEq ι] (G : LLGeom ι) (st : LLState ι) : Except PyErr (Sol ι) :=
  match st.v, st.u with
  | some v, some u =>
    match solveLinear G.cg G.S ⟨v, u, st.rho⟩ st.ctrl with
    | .ok R => .ok R
    | .error e => .error e.toPy
  | _, _ => .error .nonfinite

/-- `LLModel.solve` (`llmodel.py:260-309`).  `stype` is the argument string.
The results dictionary that is returned is the object's own (`return self._results`): the *value* returned here is its
content at that moment; see `LLState.results` for what the caller's reference reads later.
When a linear solve fails in `np.linalg.solve` the dictionary keeps its old content; when it produces `nan` the
dictionary is overwritten with `nan`, which is `none` here. -/
noncomputable def llSolve [Fintype ι] [DecidableEq ι] (G : LLGeom ι) (st : LLState ι) (stype : String)
    (aero : Option (AeroDict ι)) (ctrl : Option CtrlDict) : Except PyErr (Sol ι) × LLState ι :=
  match processAero G st aero with
  | (.error e, st1) => (.error e, st1)
  | (.ok (), st1) =>
    let st2 := processCtrl G st1 ctrl
    if stype = "linear" then
      match runLinear G st2 with
      | .ok R => (.ok R, { st2 with results := some R })
      | .error .linAlg => (.error .linAlg, st2)
      | .error e => (.error e, { st2 with results := none })
    else (.error .runtime, st2)

/-- One call of `solve`, as an element of a call history. (`llmodel.py:260`) -/
structure LLCall (ι : Type*) where
  stype : String
  aero : Option (AeroDict ι)
  ctrl : Option CtrlDict

/-- State of the object after a history of `solve` calls (exceptions are caught by the caller). (calls of `llmodel.py:260-309` one after the other) -/
noncomputable def llHistory [Fintype ι] [DecidableEq ι] (G : LLGeom ι) (st : LLState ι) (h : List (LLCall ι)) :
    LLState ι :=
  h.foldl (fun st c => (llSolve G st c.stype c.aero c.ctrl).2) st

end Verif
