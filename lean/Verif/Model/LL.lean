import Verif.Base.V3
import Mathlib.LinearAlgebra.Matrix.NonsingularInverse
import Mathlib.Analysis.SpecialFunctions.Trigonometric.Arctan
import Mathlib.Analysis.SpecialFunctions.Complex.Arg

/-!
# Model of the lifting-line solution (`machup/llmodel.py`)

The numerical kernel of `LLModel.solve('linear', ...)`: everything between the flow/control arrays and the
results dictionary.  The numpy arrays indexed by section are functions `ι → _` on an arbitrary finite index
type `ι` (the code uses `ι = {0, …, N-1}`); the arrays of `LLGrid._data` are kept as one record per section
(array-of-structs instead of struct-of-arrays).

`LLModel._machup_compare` is set to `True` in `llmodel.py:86` and never changed; only those branches are modelled.
-/

namespace Verif
open V3

/-- The seven airfoil coefficients the lifting-line model takes from a root or tip airfoil
(`llgrid.py:295-308`, stored as `*_left` / `*_right`). -/
structure AfCoef where
  /-- `CL_a_left` / `CL_a_right` -/
  cla : ℝ
  /-- `alpha_L0_left` / `alpha_L0_right` -/
  al0 : ℝ
  /-- `Cm_a_left` / `Cm_a_right` -/
  cma : ℝ
  /-- `Cm_L0_left` / `Cm_L0_right` -/
  cml0 : ℝ
  cd0 : ℝ
  cd1 : ℝ
  cd2 : ℝ

/-- One entry of every array of `LLGrid._data` (`llgrid.py:38-87`) that a solve or a distribution uses. -/
structure Section where
  /-- `seg_name` -/
  name : String
  /-- `spacing_cp` -/
  sp : ℝ
  /-- control point `r` -/
  rcp : V3
  /-- left corner `r_1` -/
  r1 : V3
  /-- right corner `r_2` -/
  r2 : V3
  /-- `c` -/
  chord : ℝ
  /-- `get_twist()`, degrees -/
  twist : ℝ
  /-- degrees -/
  dihedral : ℝ
  /-- degrees -/
  sweep : ℝ
  /-- `dS` -/
  area : ℝ
  /-- `CL_a` (interpolated) -/
  cla : ℝ
  /-- `alpha_L0` (interpolated) -/
  al0 : ℝ
  /-- `CL_max` (interpolated) -/
  clMax : ℝ
  left : AfCoef
  right : AfCoef
  /-- axial unit vector `u_a` -/
  ua : V3
  /-- normal unit vector `u_n` -/
  un : V3
  /-- spanwise unit vector `u_s` -/
  us : V3
  /-- `flap_eff` -/
  flapEff : ℝ
  /-- `Cm_d` -/
  cmd : ℝ
  /-- `int_chord2` -/
  ic2 : ℝ
  mixA : ℝ
  mixE : ℝ
  mixR : ℝ
  mixF : ℝ

/-- `_aero_data` as used by a solve (`llmodel.py:89-96`): velocity and density per section and the wind direction. -/
@[ext] structure Flow (ι : Type*) where
  v : ι → V3
  u : V3
  rho : ι → ℝ

/-- `_control_data` (`llmodel.py:97-100`): deflection (radians) and deflection efficiency per section. -/
@[ext] structure Ctrl (ι : Type*) where
  delta : ι → ℝ
  eff : ι → ℝ

/-- `"FL" … "MZ"` of one of the three result groups (without `"L/D"`). (`llmodel.py:436-452`, `568-581`) -/
@[ext] structure Loads where
  FL : ℝ
  FD : ℝ
  FS : ℝ
  FX : ℝ
  FY : ℝ
  FZ : ℝ
  MX : ℝ
  MY : ℝ
  MZ : ℝ

/-- Ways in which a linear solution does not produce numbers. (divisions and `np.linalg.solve` in `llmodel.py:301-607`) -/
inductive LLErr
  /-- some division by zero happens: numpy would carry on with `nan`/`inf` entries.
  (`arctan(x/0)` with `x ≠ 0`, which numpy evaluates to `±π/2`, is also put here.) -/
  | divZero
  /-- `np.linalg.solve` raises `LinAlgError` -/
  | singular
  deriving DecidableEq

variable {ι : Type*}

/-- Influence of a semi-infinite trailing leg, `term_1` / `term_3` of `_calc_induced_velocities`
(`llmodel.py:329-332`): `cross(u_inf, r) / (|r| (|r| - u_inf·r))`. -/
noncomputable def trailTerm (u r : V3) : V3 := (1 / (nrm r * (nrm r - dot u r))) • cross u r

/-- Influence of the bound segment, `term_2` of `_pre_calculations` (`llmodel.py:143-151`):
`cross(r1, r2) (|r1|+|r2|) / (|r1||r2| (|r1||r2| + r1·r2))`. -/
noncomputable def boundTerm (r1 r2 : V3) : V3 :=
  (1 / (nrm r1 * nrm r2 * (nrm r1 * nrm r2 + dot r1 r2))) • ((nrm r1 + nrm r2) • cross r1 r2)

/-- `_vji[i, j]`: velocity at control point `i` per unit strength of horseshoe vortex `j`
(`llmodel.py:124-154` and `311-335`; the diagonal of `term_2` is zeroed at 153-154). -/
noncomputable def vji [DecidableEq ι] (S : ι → Section) (u : V3) (i j : ι) : V3 :=
  let rj1i := (S i).rcp - (S j).r1
  let rj2i := (S i).rcp - (S j).r2
  let term1 := trailTerm u rj2i
  let term2 := if i = j then 0 else boundTerm rj1i rj2i
  let term3 := trailTerm u rj1i
  (1 / (4 * Real.pi)) • (term1 + term2 - term3)

/-- No division by zero happens in `_vji` (`llmodel.py:151`, `330`, `332`). -/
def InfluenceDefined (S : ι → Section) (u : V3) : Prop :=
  (∀ i j, nrm ((S i).rcp - (S j).r1) * (nrm ((S i).rcp - (S j).r1) - dot u ((S i).rcp - (S j).r1)) ≠ 0) ∧
  (∀ i j, nrm ((S i).rcp - (S j).r2) * (nrm ((S i).rcp - (S j).r2) - dot u ((S i).rcp - (S j).r2)) ≠ 0) ∧
  (∀ i j, i ≠ j →
    nrm ((S i).rcp - (S j).r1) * nrm ((S i).rcp - (S j).r2) *
      (nrm ((S i).rcp - (S j).r1) * nrm ((S i).rcp - (S j).r2) +
        dot ((S i).rcp - (S j).r1) ((S i).rcp - (S j).r2)) ≠ 0)

/-- Bound vortex vector `delta_l = r_2 - r_1` (`llmodel.py:349-350`). -/
def dl (s : Section) : V3 := s.r2 - s.r1

/-- `_a` of `_setup_linear_matrices` (`llmodel.py:352-357`). -/
noncomputable def aMat [DecidableEq ι] (S : ι → Section) (F : Flow ι) : Matrix ι ι ℝ := fun i j =>
  -nrm (F.v i) * (S i).area * (S i).cla * dot (S i).un (vji S F.u i j) +
    (if i = j then 2 * nrm (cross (F.v i) (dl (S i))) else 0)

/-- `_effective_flap_deflection` (`llmodel.py:381-390`). -/
def effFlap (S : ι → Section) (C : Ctrl ι) (i : ι) : ℝ := (S i).flapEff * C.eff i * C.delta i

/-- local angle of attack of the undisturbed flow (`llmodel.py:374-375`) -/
noncomputable def alphaLoc (S : ι → Section) (F : Flow ι) (i : ι) : ℝ :=
  Real.arctan (dot (F.v i) (S i).un / dot (F.v i) (S i).ua)

/-- linear interpolation between the left and right value of a segment at station `s`,
`left + spacing*(right - left)` (`llmodel.py:378`, `535`, `542`, `603`, `llgrid.py:216`) -/
def lerp (s a b : ℝ) : ℝ := a + s * (b - a)

/-- lift coefficient used on the right-hand side (`llmodel.py:376-378`) -/
noncomputable def clRhs (S : ι → Section) (F : Flow ι) (C : Ctrl ι) (i : ι) : ℝ :=
  lerp (S i).sp
    ((S i).left.cla * (alphaLoc S F i + (effFlap S C i - (S i).left.al0)))
    ((S i).right.cla * (alphaLoc S F i + (effFlap S C i - (S i).right.al0)))

/-- `_b` of `_setup_linear_matrices` (`llmodel.py:379`). -/
noncomputable def bVec (S : ι → Section) (F : Flow ι) (C : Ctrl ι) (i : ι) : ℝ :=
  nrm (F.v i) * nrm (F.v i) * (S i).area * clRhs S F C i

/-- No division by zero happens in `_b` (`llmodel.py:374-375`). -/
def RhsDefined (S : ι → Section) (F : Flow ι) : Prop := ∀ i, dot (F.v i) (S i).ua ≠ 0

/-- `_v_i` of `_compute_velocities` (`llmodel.py:411`). -/
noncomputable def vInd [Fintype ι] [DecidableEq ι] (S : ι → Section) (F : Flow ι) (γ : ι → ℝ) (i : ι) : V3 :=
  F.v i + ∑ j, γ j • vji S F.u i j

/-- `np.arctan2(y, x)` (`llmodel.py:413`) -/
noncomputable def arctan2 (y x : ℝ) : ℝ := Complex.arg ⟨x, y⟩

/-- `_alphas` (`llmodel.py:412-413`). -/
noncomputable def alphas (S : ι → Section) (vi : ι → V3) (i : ι) : ℝ :=
  arctan2 (dot (vi i) (S i).un) (dot (vi i) (S i).ua)

/-- `_dyn_pressures` (`llmodel.py:415-421`), based on the undisturbed velocity. -/
noncomputable def dynP (F : Flow ι) (i : ι) : ℝ := 0.5 * F.rho i * nrm (F.v i) * nrm (F.v i)

/-- `_forces` (`llmodel.py:432`). -/
def secForce (S : ι → Section) (F : Flow ι) (γ : ι → ℝ) (vi : ι → V3) (i : ι) : V3 :=
  (F.rho i * γ i) • cross (vi i) (dl (S i))

/-- section lift coefficient of `_local_parasitic_drag_coefficient` (`llmodel.py:530-532`) -/
def secCl (S : ι → Section) (al : ι → ℝ) (i : ι) : ℝ :=
  lerp (S i).sp
    ((S i).left.cla * (al i - (S i).left.al0))
    ((S i).right.cla * (al i - (S i).right.al0))

/-- section drag coefficient of `_local_parasitic_drag_coefficient` (`llmodel.py:534-547`) -/
noncomputable def secCd (S : ι → Section) (C : Ctrl ι) (al : ι → ℝ) (i : ι) : ℝ :=
  let cl := secCl S al i
  lerp (S i).sp
    ((S i).left.cd0 + (S i).left.cd1 * cl + (S i).left.cd2 * cl * cl)
    ((S i).right.cd0 + (S i).right.cd1 * cl + (S i).right.cd2 * cl * cl)
  + 0.002 * |C.delta i| * 180 / Real.pi

/-- `_f_parasite` (`llmodel.py:455-469`). -/
noncomputable def secDrag (S : ι → Section) (F : Flow ι) (C : Ctrl ι) (vi : ι → V3) (i : ι) : V3 :=
  (0.5 * F.rho i * nrm (F.v i) * nrm (F.v i) * secCd S C (alphas S vi) i * (S i).area) •
    ((1 / nrm (vi i)) • vi i)

/-- `_local_moment_coefficient` (`llmodel.py:583-607`). -/
def secCm (S : ι → Section) (C : Ctrl ι) (al : ι → ℝ) (i : ι) : ℝ :=
  lerp (S i).sp
    ((S i).left.cml0 + (S i).left.cma * (al i - (S i).left.al0))
    ((S i).right.cml0 + (S i).right.cma * (al i - (S i).right.al0))
  + C.delta i * (S i).cmd

/-- `_moments` (`llmodel.py:562-565`). -/
noncomputable def secMoment (cg : V3) (S : ι → Section) (F : Flow ι) (C : Ctrl ι) (γ : ι → ℝ) (vi : ι → V3)
    (i : ι) : V3 :=
  (-(dynP F i) * secCm S C (alphas S vi) i * (S i).ic2) • (S i).us +
    cross ((S i).rcp - cg) (secForce S F γ vi i)

/-- moments of the parasitic forces (`llmodel.py:572`) -/
noncomputable def secMomentP (cg : V3) (S : ι → Section) (F : Flow ι) (C : Ctrl ι) (vi : ι → V3) (i : ι) : V3 :=
  cross ((S i).rcp - cg) (secDrag S F C vi i)

/-- the y axis, `[0., 1., 0.]` in `_rotate_aero_forces` (`llmodel.py:500`) -/
def ey : V3 := ⟨0, 1, 0⟩

/-- division of a vector by its norm (`llmodel.py:497-503`) -/
noncomputable def unit (a : V3) : V3 := (1 / nrm a) • a

/-- lift direction of `_rotate_aero_forces` (`llmodel.py:500-501`) -/
noncomputable def liftAxis (u : V3) : V3 := unit (cross u ey)
/-- side force direction of `_rotate_aero_forces` (`llmodel.py:502-503`) -/
noncomputable def sideAxis (u : V3) : V3 := unit (cross (liftAxis u) u)

/-- No division by zero happens in `_rotate_aero_forces` (`llmodel.py:501`, `503`). -/
def WindAxesDefined (u : V3) : Prop := nrm (cross u ey) ≠ 0 ∧ nrm (cross (liftAxis u) u) ≠ 0

/-- `_rotate_aero_forces` (`llmodel.py:497-515`): returns `(L, D, S)`. -/
noncomputable def rotateAero (u F : V3) : ℝ × ℝ × ℝ :=
  let D := dot F u
  let Dvec := D • u
  let L := dot F (liftAxis u)
  let Lvec := L • liftAxis u
  let Svec := F - Lvec - Dvec
  (L, D, dot Svec (sideAxis u))

/-- the nine entries of a result group from a total force and a total moment
(`llmodel.py:436-452`, `473-485`, `568-576`) -/
noncomputable def mkLoads (u F M : V3) : Loads :=
  let w := rotateAero u F
  ⟨w.1, w.2.1, w.2.2, F.x, F.y, F.z, M.x, M.y, M.z⟩

/-- entry-wise sum (`llmodel.py:488-494`, `578-581`) -/
def Loads.add (a b : Loads) : Loads :=
  ⟨a.FL + b.FL, a.FD + b.FD, a.FS + b.FS, a.FX + b.FX, a.FY + b.FY, a.FZ + b.FZ,
   a.MX + b.MX, a.MY + b.MY, a.MZ + b.MZ⟩

/-- Everything a successful linear solve leaves in the `LLModel` object. (`llmodel.py:301-306`, `395-607`) -/
structure Sol (ι : Type*) where
  /-- `_gamma` -/
  gamma : ι → ℝ
  /-- `_v_i` -/
  vi : ι → V3
  /-- `_alphas` -/
  alpha : ι → ℝ
  /-- `_forces` -/
  force : ι → V3
  /-- `_f_parasite` -/
  fpar : ι → V3
  /-- `_moments` -/
  moment : ι → V3
  /-- `section_cl` -/
  cl : ι → ℝ
  /-- `section_cd` -/
  cd : ι → ℝ
  /-- `section_cm` -/
  cm : ι → ℝ
  /-- `_results["inviscid"]` -/
  inviscid : Loads
  /-- `_results["viscous"]` -/
  viscous : Loads
  /-- `_results["total"]` -/
  total : Loads
  /-- `_results["total"]["L/D"]` (`llmodel.py:491`); `none` if the total drag is zero -/
  LD : Option ℝ

/-- `_forces_and_moments` (`llmodel.py:396-399`) and everything it calls, for given vortex strengths. -/
noncomputable def solOf [Fintype ι] [DecidableEq ι] (cg : V3) (S : ι → Section) (F : Flow ι) (C : Ctrl ι)
    (γ : ι → ℝ) : Sol ι :=
  let vi := vInd S F γ
  let al := alphas S vi
  let fo := secForce S F γ vi
  let fp := secDrag S F C vi
  let inv := mkLoads F.u (∑ i, fo i) (∑ i, secMoment cg S F C γ vi i)
  let vis := mkLoads F.u (∑ i, fp i) (∑ i, secMomentP cg S F C vi i)
  let tot := inv.add vis
  { gamma := γ, vi := vi, alpha := al, force := fo, fpar := fp
    moment := secMoment cg S F C γ vi
    cl := secCl S al, cd := secCd S C al, cm := secCm S C al
    inviscid := inv, viscous := vis, total := tot
    LD := open Classical in if tot.FD = 0 then none else some (tot.FL / tot.FD) }

/-- No division by zero happens after the linear system is solved (`llmodel.py:469`, `501`, `503`). -/
def PostDefined (F : Flow ι) (vi : ι → V3) : Prop := (∀ i, nrm (vi i) ≠ 0) ∧ WindAxesDefined F.u

open Classical in
/-- The `stype == "linear"` branch of `LLModel.solve` (`llmodel.py:301-306`) for given flow and control arrays.
`np.linalg.solve` (`llmodel.py:394`) is inversion of the matrix, or `LinAlgError` if it is singular. -/
noncomputable def solveLinear [Fintype ι] [DecidableEq ι] (cg : V3) (S : ι → Section) (F : Flow ι) (C : Ctrl ι) :
    Except LLErr (Sol ι) :=
  if ¬ (InfluenceDefined S F.u ∧ RhsDefined S F) then .error .divZero
  else if (aMat S F).det = 0 then .error .singular
  else
    let γ := (aMat S F)⁻¹.mulVec (bVec S F C)
    if ¬ PostDefined F (vInd S F γ) then .error .divZero
    else .ok (solOf cg S F C γ)

end Verif
