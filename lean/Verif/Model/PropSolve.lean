import Verif.Model.PropGeom
import Verif.Model.MU
import Mathlib.Analysis.SpecialFunctions.Trigonometric.Inverse

/-!
# Model of the analysis methods of `PropModel` (`propmodel.py:311-658`, `1264-1324`)

* Methods are actions on the mutable attributes that survive from call to call: the induced angles `_ei` and the rotation
  rate `_rot_per_sec`.  All other attributes are overwritten before they are read.
* `np.empty_like` arrays (`propmodel.py:1273`, `1307`) hold whatever the memory held before.  The state carries a stream
  of memory contents; every such array takes the next one (`none` entries: `nan` or `inf`).
* `while True` loops run on fuel; a loop that has not ended after `fuel` passes has the outcome `.error .recursion`.
* `scipy.integrate.simps` is the parameter `simps ys xs`.
* Runs in which `nan`/`inf` reaches an array have the outcome `.error .nonfinite`.
* Not modelled: the efficiency (`propmodel.py:423-425`), the interpolants `_Vxi_fun`, `_Vti_fun` and the Fourier fit, which
  only the Goates slipstream model uses.
-/

namespace Verif
open V3

/-- The mutable attributes of a `PropModel`, and the memory it will be given. (`propmodel.py:296-299`, `1271-1280`) -/
structure PropSt where
  /-- `_ei` -/
  ei : ℕ → ℝ := fun _ => 0
  /-- `_rot_per_sec` -/
  rps : ℝ := 15
  /-- contents of the uninitialised arrays, in order of allocation -/
  mem : ℕ → ℕ → Option ℝ
  /-- number of uninitialised arrays allocated so far -/
  tick : ℕ := 0

/-- raise a given outcome (auxiliary: for example the exception of `propmodel.py:327` ends the analysis) -/
def Act.lift {S α : Type} (e : Except PyErr α) : Act S α := fun s => (e, s)

open Classical in
/-- the run goes on only if no `nan`/`inf` appears (auxiliary: for example the divisions of `propmodel.py:411-414`) -/
noncomputable def Act.finite {S : Type} (p : Prop) : Act S Unit := if p then Act.ret () else Act.raise .nonfinite

open Classical in
/-- an array of `n` numbers, none of them `nan`/`inf`, with 0 beyond its end (auxiliary: the arrays of `propmodel.py:392-395`) -/
noncomputable def Act.allSome {S : Type} (n : ℕ) (f : ℕ → Option ℝ) : Act S (ℕ → ℝ) :=
  if ∀ i, i < n → (f i).isSome then Act.ret fun i => if i < n then (f i).getD 0 else 0
  else Act.raise .nonfinite

/-! ### Lift and drag of a blade section -/

open Classical in
/-- the lift of one side at the shifted angle `x`: linear below 2°, then blended into Viterna's formula
(`propmodel.py:1287-1290`, `1294-1297`) -/
noncomputable def liftSide (CLa A2 aStall x : ℝ) : Option ℝ :=
  let linear := CLa * x
  if x < rad 2 then some linear
  else if Real.sin x = 0 then none
  else
    let viterna := cdm / 2 * Real.sin (2 * x) + A2 * Real.cos x * Real.cos x / Real.sin x
    let step := Real.tanh (deg (x - aStall)) / 2 + 0.5
    some ((1 - step) * linear + step * viterna)

open Classical in
/-- `_get_CL` (`propmodel.py:1271-1300`) at one node: `mem` is the content of the uninitialised entry -/
noncomputable def sectionCL (s : Stn) (mem : Option ℝ) (alpha : ℝ) : Option ℝ :=
  if 0 < alpha then (liftSide s.af.CLa s.A2 s.aStall (alpha - s.dA)).map fun l => l + s.af.CLa * s.dA
  else if alpha < 0 then
    (liftSide s.af.CLa s.A2n s.aStallNeg (-alpha - s.dA)).map fun l => -l - s.af.CLa * s.dA
  else mem

open Classical in
/-- `_CD_Viterna` (`propmodel.py:1306-1317`) at one node: later assignments win -/
noncomputable def sectionCD (s : Stn) (mem : Option ℝ) (CL alpha : ℝ) : Option ℝ :=
  if alpha < s.dasNeg then some (cdm * Real.sin (-alpha) ^ 2 + s.B2n * Real.cos (-alpha))
  else if s.das < alpha then some (cdm * Real.sin alpha * Real.sin alpha + s.B2 * Real.cos alpha)
  else if alpha < s.das ∧ s.dasNeg < alpha then some (s.af.CD0 + s.af.CDL * CL + s.af.CDL2 * CL * CL)
  else mem

/-- the next uninitialised array (`np.empty_like` in `propmodel.py:1273`) -/
def nextMem : Act PropSt (ℕ → Option ℝ) := fun st => (.ok (st.mem st.tick), { st with tick := st.tick + 1 })

section
variable {ι : Type} (M : PropM ι)

/-- `_get_CL` on arrays (`propmodel.py:1271-1300`) -/
noncomputable def getCL (alpha : ℕ → ℝ) : Act PropSt (ℕ → ℝ) := do
  let mem ← nextMem
  Act.allSome M.nodes fun i => sectionCL (M.stn i) (mem i) (alpha i)

/-- `_get_CD` on arrays (`propmodel.py:1302-1304`) -/
noncomputable def getCD (CL alpha : ℕ → ℝ) : Act PropSt (ℕ → ℝ) := do
  let mem ← nextMem
  Act.allSome M.nodes fun i => sectionCD (M.stn i) (mem i) (CL i) (alpha i)

/-- `_get_CL_a` (`propmodel.py:1319-1324`) -/
noncomputable def getCLa (alpha : ℕ → ℝ) : Act PropSt (ℕ → ℝ) := do
  let f ← getCL M fun i => alpha i + 0.001
  let b ← getCL M fun i => alpha i - 0.001
  return fun i => (f i - b i) / 2 / 0.001

/-! ### Induced angles -/

/-- `_einf` (`propmodel.py:378`) -/
noncomputable def einfAt (J zeta : ℝ) : ℝ := arctan2 J (Real.pi * zeta)

/-- `_ei_func_b` before `arccos` (`propmodel.py:387`) -/
noncomputable def goldstein (i : ℕ) : ℝ :=
  Real.exp (-(M.blades * (1 - (M.stn i).zeta)) / (2 * Real.sin (M.stn (M.nodes - 1)).beta))

/-- `_ei_function` (`propmodel.py:453-457`) -/
noncomputable def eiFunction (einf ei : ℕ → ℝ) : Act PropSt (ℕ → ℝ) := do
  let CL ← getCL M fun i => (M.stn i).beta - einf i - ei i
  Act.finite (∀ i, i < M.nodes → Real.cos (ei i) ≠ 0)
  return fun i => (M.stn i).chatb / (8 * (M.stn i).zeta) * CL i -
    Real.arccos (goldstein M i) * Real.tan (ei i) * Real.sin (einf i + ei i)

open Classical in
/-- `np.sign` (`propmodel.py:460-466`) -/
noncomputable def npSign (x : ℝ) : ℝ := if 0 < x then 1 else if x < 0 then -1 else 0

open Classical in
/-- `_correct_ei` (`propmodel.py:460-464`) at one node -/
noncomputable def correctEi (beta einf ei : ℝ) : ℝ :=
  let sgn := npSign (beta - einf)
  let e := if |ei| < 1 then ei else 0.3 * sgn
  if npSign e ≠ sgn then e * -1 else e

open Classical in
/-- the `while True` loop of `_find_ei` (`propmodel.py:436-450`); `k` is the pass counter -/
noncomputable def eiLoop (einf : ℕ → ℝ) : ℕ → ℕ → (x0 x1 x2 y0 y1 : ℕ → ℝ) → Act PropSt (ℕ → ℝ)
  | 0, _, _, _, _, _, _ => Act.raise .recursion
  | fuel + 1, k, x0, x1, x2, y0, y1 => do
    let live (i : ℕ) : Prop := |y1 i - y0 i| > 1e-11
    let size := ((List.range M.nodes).filter fun i => live i).length
    let x2 : ℕ → ℝ := fun i => correctEi (M.stn i).beta (einf i)
      (if live i then x1 i - y1 i * (x1 i - x0 i) / (y1 i - y0 i) else x2 i)
    if (k + 1 > 50 ∧ size < 3) ∨ size = 0 then return x2
    else
      let y ← eiFunction M einf x2
      eiLoop einf fuel (k + 1) x1 x2 x2 y1 y

/-- `_find_ei` (`propmodel.py:427-450`) -/
noncomputable def findEi (fuel : ℕ) (einf : ℕ → ℝ) : Act PropSt (ℕ → ℝ) := do
  let st ← Act.get
  let x0 := st.ei
  let x1 : ℕ → ℝ := fun i => x0 i * (1 + 1e-4) - 1e-4
  let y0 ← eiFunction M einf x0
  let y1 ← eiFunction M einf x1
  eiLoop M einf fuel 0 x0 x1 x0 y0 y1

/-- what `_find_coefficients` leaves behind (`propmodel.py:377-425`) -/
structure Coefs where
  /-- `_einf` -/
  einf : ℕ → ℝ
  /-- `_ei` -/
  ei : ℕ → ℝ
  /-- `_alpha` -/
  alpha : ℕ → ℝ
  /-- `_CL` -/
  CL : ℕ → ℝ
  /-- `_CD` -/
  CD : ℕ → ℝ
  /-- `_CT` -/
  CT : ℝ
  /-- `_Cl` -/
  Cl : ℝ
  /-- `_CN_a` -/
  CNa : ℝ
  /-- `_Cn_a` -/
  Cna : ℝ

/-- `_CP` (`propmodel.py:421`) -/
noncomputable def Coefs.CP (c : Coefs) : ℝ := c.Cl * 2 * Real.pi

/-- `simps(y, self._zeta)` (`propmodel.py:416-419`) -/
noncomputable def overBlade (simps : List ℝ → List ℝ → ℝ) (y : ℕ → ℝ) : ℝ :=
  simps ((List.range M.nodes).map y) ((List.range M.nodes).map fun i => (M.stn i).zeta)

/-- the section coefficients and the integrals over the blade (`propmodel.py:391-421`) -/
noncomputable def coefsAt (simps : List ℝ → List ℝ → ℝ) (einf ei : ℕ → ℝ) : Act PropSt Coefs := do
  let alpha : ℕ → ℝ := fun i => (M.stn i).beta - einf i - ei i
  let CL ← getCL M alpha
  let CD ← getCD M CL alpha
  let CLa ← getCLa M alpha
  let z (i : ℕ) := (M.stn i).zeta
  let ch (i : ℕ) := (M.stn i).chatb
  let cei2 (i : ℕ) := Real.cos (ei i) * Real.cos (ei i)
  let ceinf2 (i : ℕ) := Real.cos (einf i) * Real.cos (einf i)
  let cee (i : ℕ) := Real.cos (einf i + ei i)
  let see (i : ℕ) := Real.sin (einf i + ei i)
  let te (i : ℕ) := Real.tan (einf i)
  let CTz : ℕ → ℝ := fun i => z i * z i * ch i * (cei2 i / ceinf2 i) * (CL i * cee i - CD i * see i)
  let Clz : ℕ → ℝ := fun i => z i * z i * z i * ch i * (cei2 i / ceinf2 i) * (CD i * cee i + CL i * see i)
  let CNz : ℕ → ℝ := fun i => z i * z i * ch i * cei2 i *
    (2 * te i * (CD i * cee i + CL i * see i) - te i * te i * (CL i * cee i - (CLa i + CD i) * see i))
  let Cnz : ℕ → ℝ := fun i => z i * z i * z i * ch i * cei2 i *
    (2 * te i * (CL i * cee i - CD i * see i) + te i * te i * ((CLa i + CD i) * cee i + CL i * see i))
  let pi2 := Real.pi * Real.pi
  return { einf, ei, alpha, CL, CD
           CT := pi2 / 4 * overBlade M simps CTz
           Cl := pi2 / 8 * overBlade M simps Clz
           CNa := pi2 / 8 * overBlade M simps CNz
           Cna := pi2 / 16 * overBlade M simps Cnz }

open Classical in
/-- `_find_coefficients` (`propmodel.py:377-425`) at advance ratio `J` -/
noncomputable def findCoefs (simps : List ℝ → List ℝ → ℝ) (fuel : ℕ) (J : ℝ) : Act PropSt Coefs := do
  let einf : ℕ → ℝ := fun i => einfAt J (M.stn i).zeta
  Act.change fun st =>
    if ∃ i, i < M.nodes ∧ st.ei i ≠ 0 then st else { st with ei := fun i => (M.stn i).beta - einf i }
  Act.finite (Real.sin (M.stn (M.nodes - 1)).beta ≠ 0 ∧ ∀ i, i < M.nodes → goldstein M i ≤ 1 ∧ Real.cos (einf i) ≠ 0)
  let ei ← findEi M fuel einf
  Act.change fun st => { st with ei := ei }
  coefsAt M simps einf ei

/-! ### The operating state -/

/-- `_rho`, `_Vinf`, `_v_xyz` (`propmodel.py:311-339`) -/
structure PFlow where
  rho : ℝ
  V : ℝ
  u : V3

/-- `_set_aero_state` (`propmodel.py:311-339`); the same computation is in `_initialize_velocity_field`
(`propssolver.py:143-169`).  `1/m.sqrt(0.)` raises. -/
noncomputable def propFlow (aero : Option (AeroDict ι)) : Except PyErr PFlow :=
  match aero with
  | some d =>
    if d.truthy then
      match freestream 1 (d.alpha.getD 0) (d.beta.getD 0) with
      | none => .error .zeroDiv
      | some u =>
        match d.Vmag with
        | none => .error .runtime
        | some V =>
          match d.rho with
          | none => .error .runtime
          | some rho => .ok ⟨rho, V, u⟩
    else .ok ⟨0.0023769, 10, ⟨-1, 0, 0⟩⟩
  | none => .ok ⟨0.0023769, 10, ⟨-1, 0, 0⟩⟩

/-- values in a `prop_state` dictionary: numbers and, under propeller names, dictionaries of numbers (`propmodel.py:341-375`, `propssolver.py:79-87`) -/
inductive PSVal
  | num (x : ℝ)
  | dict (d : List (String × ℝ))

/-- a `prop_state` dictionary (`propmodel.py:341-375`, `propssolver.py:79-87`) -/
abbrev PropDict : Type := List (String × PSVal)

/-- an entry used as a number (`propmodel.py:341-375`) -/
def PSVal.real : PSVal → Except PyErr ℝ
  | .num x => .ok x
  | .dict _ => .error .type

/-- how the rotation rate is found (`propmodel.py:341-375`, `468-476`) -/
inductive Drive
  /-- `_J` is known (and `_rot_per_sec` is set) -/
  | atJ (J : ℝ)
  /-- `_brake_power` -/
  | power (P : ℝ)
  /-- `_throttle` -/
  | motor (throttle : ℝ)

/-- `prop_state[key]`, used as a number (`propmodel.py:341-375`) -/
def psReal (s : PropDict) (key : String) : Except PyErr ℝ := do (← getKey (dictGet s key)).real

open Classical in
/-- `_set_prop_state` (`propmodel.py:341-373`) for a dictionary or `None`, which counts as empty -/
noncomputable def setPropDict (V : ℝ) (s : PropDict) : Act PropSt Drive :=
  if s = [] then do
    Act.change fun st => { st with rps := V / (M.d * 0.5) }
    return .atJ 0.5
  else if (dictGet s "J").isSome then do
    let J ← Act.lift (psReal s "J")
    if J = 0 ∨ V = 0 then
      if (dictGet s "rot_per_sec").isSome then
        let n ← Act.lift (psReal s "rot_per_sec")
        Act.change fun st => { st with rps := n }
        return .atJ J
      else Act.raise .runtime
    else
      Act.change fun st => { st with rps := V / (M.d * J) }
      return .atJ J
  else if (dictGet s "rot_per_sec").isSome then do
    let n ← Act.lift (psReal s "rot_per_sec")
    Act.change fun st => { st with rps := n }
    if n * M.d = 0 then Act.raise .zeroDiv
    else return .atJ (V / (n * M.d))
  else if (dictGet s "brake_power").isSome then do
    return .power (← Act.lift (psReal s "brake_power"))
  else if (dictGet s "electric_throttle").isSome then do
    return .motor (← Act.lift (psReal s "electric_throttle"))
  else Act.raise .runtime

/-! ### Rotation rate from power -/

/-- the evaluation shared by `_zero_power_difference` and `_zero_torque_difference` (`propmodel.py:498-500`, `524-526`).
Division by zero raises or gives `inf`, depending on the number type. -/
noncomputable def coefsAtRate (simps : List ℝ → List ℝ → ℝ) (fuel : ℕ) (V n : ℝ) : Act PropSt Coefs := do
  Act.change fun st => { st with rps := n }
  Act.finite (n * M.d ≠ 0)
  findCoefs M simps fuel (V / (n * M.d))

/-- `_zero_power_difference` (`propmodel.py:497-502`) -/
noncomputable def powerDiff (simps : List ℝ → List ℝ → ℝ) (fuel : ℕ) (fl : PFlow) (P n : ℝ) : Act PropSt (ℝ × Coefs) := do
  let c ← coefsAtRate M simps fuel fl.V n
  return (fl.rho * n ^ 3 * M.d ^ 5 * c.CP - P, c)

/-- `_electric_motor_torque` (`propmodel.py:531-541`).  The order of the tests: the arithmetic comes first. -/
noncomputable def motorTorque (units : Option String) (m : Motor) (thr n : ℝ) : Except PyErr ℝ := do
  let N := n * 60
  let ns := 1 - 0.079 * (1 - thr)
  let g ← safeDiv m.gr m.kv
  let Im ← safeDiv (ns * thr * m.eo - g * N) (ns * thr * m.rb + m.rc + m.rm)
  let k ← safeDiv (7.0432 * m.gr) m.kv
  let Tq := k * (Im - m.io)
  match units with
  | none => .error .runtime
  | some u => if u = "English" then .ok Tq else .ok (Tq * 1.3558179483314)

/-- `_zero_torque_difference` (`propmodel.py:523-529`) -/
noncomputable def torqueDiff (simps : List ℝ → List ℝ → ℝ) (fuel : ℕ) (fl : PFlow) (m : Motor) (thr n : ℝ) :
    Act PropSt (ℝ × Coefs) := do
  let c ← coefsAtRate M simps fuel fl.V n
  let Tq ← Act.lift (motorTorque M.units m thr n)
  return (fl.rho * n ^ 2 * M.d ^ 5 * c.Cl - Tq, c)

open Classical in
/-- the `while True` loop of `_find_rot_rate_power` and `_find_rot_rate_motor` (`propmodel.py:485-495`, `511-521`), returning
the rate and the coefficients computed last -/
noncomputable def rateLoop (f : ℝ → Act PropSt (ℝ × Coefs)) : ℕ → (x0 x1 y0 y1 : ℝ) → Coefs → Act PropSt (ℝ × Coefs)
  | 0, _, _, _, _, _ => Act.raise .recursion
  | fuel + 1, x0, x1, y0, y1, c => do
    Act.finite (y1 - y0 ≠ 0)
    let x2 := x1 - y1 * (x1 - x0) / (y1 - y0)
    if |x2 - x1| < 1e-14 then return (x2, c)
    else
      let (y, c) ← f x2
      rateLoop f fuel x1 x2 y1 y c

open Classical in
/-- `_find_rot_rate_power` / `_find_rot_rate_motor` (`propmodel.py:478-495`, `504-521`) -/
noncomputable def findRate (f : ℝ → Act PropSt (ℝ × Coefs)) (fuel : ℕ) : Act PropSt (ℝ × Coefs) := do
  let st ← Act.get
  let x0 := st.rps
  let (y0, c0) ← f x0
  if |y0| < 1e-14 then return (x0, c0)
  else
    let x1 := x0 * 1.5
    let (y1, c1) ← f x1
    rateLoop f fuel x0 x1 y0 y1 c1

/-- the coefficients used for the forces (`propmodel.py:545-549`, `467-477`): from the advance ratio, or those of the last
evaluation of the power or torque balance -/
noncomputable def driveCoefs (simps : List ℝ → List ℝ → ℝ) (fuel : ℕ) (fl : PFlow) : Drive → Act PropSt Coefs
  | .atJ J => findCoefs M simps fuel J
  | .power P => do
    let (n, c) ← findRate (powerDiff M simps fuel fl P) fuel
    Act.change fun st => { st with rps := n }
    Act.finite (n * M.d ≠ 0)
    return c
  | .motor thr =>
    match M.motor with
    | none => Act.raise .runtime
    | some m => do
      let (n, c) ← findRate (torqueDiff M simps fuel fl m thr) fuel
      Act.change fun st => { st with rps := n }
      Act.finite (n * M.d ≠ 0)
      return c

/-! ### Forces -/

/-- `_vec_angle` (`propmodel.py:1545-1551`) -/
noncomputable def vecAngle (a b : V3) : ℝ := Real.arccos (dot a b / (nrm a * nrm b))

/-- what a propeller analysis produces (`propmodel.py:545-584`) -/
structure PropOut where
  F : V3
  M : V3
  /-- thrust `_T` -/
  T : ℝ
  /-- torque `_l` -/
  l : ℝ
  /-- `_rot_per_sec` -/
  n : ℝ
  c : Coefs

/-- `_Vi` (`propmodel.py:577`) -/
noncomputable def viAt (n : ℝ) (c : Coefs) (i : ℕ) : ℝ :=
  n * 2 * Real.pi * (M.stn i).r * Real.sin (c.ei i) / Real.cos (c.einf i)
/-- `_Vxi` (`propmodel.py:578-579`) -/
noncomputable def vxiAt (n : ℝ) (c : Coefs) (i : ℕ) : ℝ := viAt M n c i * Real.cos (c.ei i + c.einf i)
/-- `_Vti` (`propmodel.py:580`) -/
noncomputable def vtiAt (n : ℝ) (c : Coefs) (i : ℕ) : ℝ := viAt M n c i * Real.sin (c.ei i + c.einf i)

open Classical in
/-- forces and moments from the coefficients (`propmodel.py:551-571`) -/
noncomputable def forcesOf (fl : PFlow) (n : ℝ) (c : Coefs) : Except PyErr PropOut := do
  let angle := vecAngle M.fwd (-fl.u)
  let (N, nn, Nvec) ←
    if angle = 0 then .ok (0, 0, 0)
    else
      let dir := cross (cross (-fl.u) M.fwd) M.fwd
      let len := Real.sqrt (dir.x ^ 2 + dir.y ^ 2 + dir.z ^ 2)
      if len = 0 then .error .nonfinite
      else .ok (fl.rho * (n * n) * M.d ^ 4 * c.CNa * angle, fl.rho * (n * n) * M.d ^ 5 * c.Cna * angle,
        (1 / len) • dir)
  let T := fl.rho * (n * n) * M.d ^ 4 * c.CT
  let l := fl.rho * (n * n) * M.d ^ 5 * c.Cl * (-M.rot)
  let F : V3 := T • M.fwd + N • Nvec
  let x := M.geom.position.x - M.cg.x
  let y := M.geom.position.y - M.cg.y
  let z := M.geom.position.z - M.cg.z
  let off : V3 := ⟨F.z * y - F.y * z, F.x * z - F.z * x, F.y * x - F.x * y⟩
  return { F, M := off + (M.rot * nn) • Nvec + l • M.fwd, T, l, n, c }

/-- `PropModel._calc_forces` (`propmodel.py:545-571`).  `interp1d` in `_find_Vi` needs two nodes. -/
noncomputable def calcForces (simps : List ℝ → List ℝ → ℝ) (fuel : ℕ) (fl : PFlow) (dr : Drive) : Act PropSt PropOut := do
  let c ← driveCoefs M simps fuel fl dr
  if M.nodes < 2 then Act.raise .value
  else
    let st ← Act.get
    Act.lift (forcesOf M fl st.rps c)

/-! ### Slipstream -/

/-- `_t` (`propmodel.py:286`) -/
noncomputable def streamT (p : V3) : ℝ := dot (p - M.geom.position) M.fwd
/-- `center2point_vec` (`propmodel.py:287-289`) -/
noncomputable def offAxis (p : V3) : V3 := p - (M.geom.position + streamT M p • M.fwd)
/-- `_center2point_dist` (`propmodel.py:290`) -/
noncomputable def axisDist (p : V3) : ℝ := nrm (offAxis M p)
/-- `tangent` (`propmodel.py:291`) -/
noncomputable def tangentAt (p : V3) : V3 := cross M.fwd (offAxis M p)
/-- `_points_in_stream` (`propmodel.py:294`) -/
def InStream (p : V3) : Prop := |axisDist M p| ≤ M.d / 2 ∧ streamT M p < 0

/-- `kd` (`propmodel.py:634`) at distance `s` behind the propeller -/
noncomputable def stoneKd (s : ℝ) : ℝ := 1 + s / Real.sqrt (s * s + M.d / 2 * (M.d / 2))

variable (V n : ℝ) (c : Coefs)

/-- `Vx2` (`propmodel.py:639`) -/
noncomputable def vx2 (i : ℕ) : ℝ := vxiAt M n c (i + 1) + vxiAt M n c i

/-- `Kv` (`propmodel.py:640`) -/
noncomputable def stoneKv (s : ℝ) (i : ℕ) : ℝ := (2 * V + vx2 M n c i) / (2 * V + stoneKd M s * vx2 M n c i)

/-- `r_prime` (`propmodel.py:636-642`) -/
noncomputable def rPrime (s : ℝ) : ℕ → ℝ
  | 0 => (M.stn 0).r
  | i + 1 => Real.sqrt (rPrime s i * rPrime s i +
      ((M.stn (i + 1)).r * (M.stn (i + 1)).r - (M.stn i).r * (M.stn i).r) * stoneKv M V n c s i)

/-- `Vxi_prime` (`propmodel.py:644`) -/
noncomputable def vxPrime (s : ℝ) (i : ℕ) : ℝ := vxiAt M n c i * stoneKd M s

/-- `Vti_prime` (`propmodel.py:645-647`) -/
noncomputable def vtPrime (s : ℝ) (i : ℕ) : ℝ :=
  let j := M.nodes / 10
  if j ≤ i then 2 * vtiAt M n c i * (M.stn i).r / rPrime M V n c s i
  else (2 * vtiAt M n c j * (M.stn j).r / rPrime M V n c s j) / rPrime M V n c s j * rPrime M V n c s i

/-- no division by zero and no root of a negative number in `propmodel.py:634-647` -/
def StoneFinite (s : ℝ) : Prop :=
  (∀ i, i + 1 < M.nodes → 2 * V + stoneKd M s * vx2 M n c i ≠ 0 ∧
    0 ≤ rPrime M V n c s i * rPrime M V n c s i +
      ((M.stn (i + 1)).r * (M.stn (i + 1)).r - (M.stn i).r * (M.stn i).r) * stoneKv M V n c s i) ∧
  ∀ i, i < M.nodes → rPrime M V n c s i ≠ 0

open Classical in
/-- `np.interp(x, xp, fp, left=0, right=0)` for increasing `xp` (`propmodel.py:655-656`) -/
noncomputable def npInterp (N : ℕ) (xp fp : ℕ → ℝ) (x : ℝ) : ℝ :=
  if x < xp 0 ∨ xp (N - 1) < x then 0 else pwl ((List.range N).map fun i => (xp i, fp i)) x

open Classical in
/-- `_calc_prop_wing_vel` (`propmodel.py:616-658`) at one wing point.
On the axis `tangent/|tangent|` is `nan` (`propmodel.py:292`). -/
noncomputable def propVel (p : V3) : Except PyErr V3 :=
  if InStream M p then
    let s := -streamT M p
    if ¬ StoneFinite M V n c s then .error .nonfinite
    else if nrm (tangentAt M p) = 0 then .error .nonfinite
    else
      let Vx := npInterp M.nodes (rPrime M V n c s) (vxPrime M n c s) (axisDist M p)
      let Vt := npInterp M.nodes (rPrime M V n c s) (vtPrime M V n c s) (axisDist M p) * M.rot
      .ok ((Vt / nrm (tangentAt M p)) • tangentAt M p + Vx • (-M.fwd))
  else .ok 0

end

/-! ### `PropsSolver` (`propssolver.py`) -/

section
variable {ι : Type}

/-- the propellers of a plane and their mutable state: `_prop_models`, in insertion order (`propssolver.py:7-15`) -/
structure PropSlot (ι : Type) where
  name : String
  model : PropM ι
  st : PropSt
  /-- the arrays left by the last complete analysis -/
  out : Option PropOut := none

/-- the state that applies to one propeller (`propssolver.py:79-87`).
`None` and the empty dictionary both mean "no state".  A number under the name of a propeller: 0 counts as "no state", any
other is not a container. -/
noncomputable def localPS (ps : PropDict) (name : String) : Except PyErr PropDict :=
  if ps = [] then .ok []
  else
    match dictGet ps name with
    | none => .ok ps
    | some (.dict d) => .ok (d.map fun kv => (kv.1, .num kv.2))
    | some (.num x) => open Classical in if x = 0 then .ok [] else .error .type

/-- set the operating state of one propeller and analyse it (`propssolver.py:89-92`) -/
noncomputable def runProp (simps : List ℝ → List ℝ → ℝ) (fuel : ℕ) (M : PropM ι) (aero : Option (AeroDict ι)) (s : PropDict) :
    Act PropSt PropOut := do
  let fl ← Act.lift (propFlow aero)
  let dr ← setPropDict M fl.V s
  calcForces M simps fuel fl dr

/-- what the loop of `_calc_forces` has accumulated: `_F`, `_M` and the last `T`, `l` (`none` before the first propeller) (`propssolver.py:70-109`) -/
structure PropAcc where
  F : V3 := 0
  M : V3 := 0
  last : Option (ℝ × ℝ) := none

/-- the loop of `_calc_forces` (`propssolver.py:77-94`).  Also returned: the results of the propellers. -/
noncomputable def propsLoop (simps : List ℝ → List ℝ → ℝ) (fuel : ℕ) (aero : Option (AeroDict ι)) (ps : PropDict) :
    List (PropSlot ι) → PropAcc → Except PyErr (PropAcc × List PropOut) × List (PropSlot ι)
  | [], acc => (.ok (acc, []), [])
  | sl :: rest, acc =>
    match localPS ps sl.name with
    | .error e => (.error e, sl :: rest)
    | .ok s =>
      match runProp simps fuel sl.model aero s sl.st with
      | (.error e, st) => (.error e, { sl with st } :: rest)
      | (.ok o, st) =>
        match propsLoop simps fuel aero ps rest { F := acc.F + o.F, M := acc.M + o.M, last := some (o.T, o.l) } with
        | (.ok (acc, outs), rest) => (.ok (acc, o :: outs), { sl with st, out := some o } :: rest)
        | (.error e, rest) => (.error e, { sl with st, out := some o } :: rest)

/-- `_rotate_aero_forces` (`propssolver.py:111-140`) as (lift, drag, side) -/
noncomputable def rotateForces (u F : V3) : Except PyErr (ℝ × ℝ × ℝ) := do
  let Lx := cross u ⟨0, 1, 0⟩
  let L ← (match normalise Lx with | some v => .ok v | none => .error .nonfinite)
  let S ← (match normalise (cross L u) with | some v => .ok v | none => .error .nonfinite)
  let D := dot F u
  let l := dot F L
  return (l, D, dot (F - l • L - D • u) S)

/-- `PropsSolver._calc_forces` (`propssolver.py:70-109`).  `T` is unbound if there are no propellers. -/
noncomputable def propsForces (simps : List ℝ → List ℝ → ℝ) (fuel : ℕ) (aero : Option (AeroDict ι)) (ps : PropDict) :
    Act (List (PropSlot ι)) (PropTotals × List PropOut) := fun sls =>
  match propsLoop simps fuel aero ps sls {} with
  | (.error e, sls) => (.error e, sls)
  | (.ok (acc, outs), sls) =>
    match aero with
    | none => (.error .attribute, sls)
    | some d =>
      match freestream 1 (d.alpha.getD 0) (d.beta.getD 0) with
      | none => (.error .zeroDiv, sls)
      | some u =>
        match rotateForces u acc.F, acc.last with
        | .error e, _ => (.error e, sls)
        | .ok _, none => (.error .unbound, sls)
        | .ok (L, D, S), some (T, l) =>
          (.ok (⟨⟨L, D, S, acc.F.x, acc.F.y, acc.F.z, acc.M.x, acc.M.y, acc.M.z⟩, T, l⟩, outs), sls)

/-- the velocity at a wing point (`propssolver.py:61-65`): the freestream plus the contributions of the propellers -/
noncomputable def pointVel (fl : PFlow) (p : V3) : List (PropM ι × PropOut) → Except PyErr V3
  | [] => .ok (fl.V • fl.u)
  | (M, o) :: t => do
    let v ← propVel M fl.V o.n o.c p
    let w ← pointVel fl p t
    return w + v

open Classical in
/-- `PropsSolver.solve` (`propssolver.py:17-67`).  All models have the same wing points; `pts` are the solver's. -/
noncomputable def propsSolve (simps : List ℝ → List ℝ → ℝ) (fuel : ℕ) (pts : Option (ι → V3)) (aero : Option (AeroDict ι))
    (ps : PropDict) : Act (List (PropSlot ι)) (PropTotals × Option (ι → ℝ × V3)) := do
  let (tot, outs) ← propsForces simps fuel aero ps
  match pts with
  | none => return (tot, none)
  | some p =>
    let fl ← Act.lift (propFlow aero)
    let sls ← Act.get
    let vel (i : ι) : Except PyErr V3 := pointVel fl (p i) ((sls.map PropSlot.model).zip outs)
    if ∀ i, (vel i).toBool then return (tot, some fun i => (fl.rho, (vel i).toOption.getD 0))
    else Act.raise .nonfinite

end

end Verif
