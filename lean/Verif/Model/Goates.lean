import Verif.Model.Propwash
import Mathlib.Algebra.BigOperators.Group.Finset.Basic
import Mathlib.Data.Finset.Sort

/-!
# Model of the viscous slipstream (`propmodel.py:718-1260`)

`PropModel._find_propwash_velocities_Goates` and the functions only it calls.

* `scipy.optimize.root`, the Runge-Kutta stepper `ode('dopri5')` and cubic `interp1d` are parameters (`Ext`).
* All arrays that are indexed by the control points are computed from the distance `x` behind the disc, or from the development factor `kd`
  of that distance; `np.unique` with its indices is a sorted list without repetitions and a look-up.
* Runs in which `nan`/`inf` appear have the outcome `.error .nonfinite`, even where a later call would raise; the functions handed to
  `opt.root` are total (`x/0 = 0`), since a root finder decides itself what to do with `nan`.
* `np.empty_like` (`propmodel.py:905`, `1230`) takes its contents from the one array `junk`.
* `B` (`propmodel.py:1068-1089`) is a list of numbers; the code mixes a number with arrays of one element.
-/

namespace Verif.Goates
open V3

/-- The external routines. (called from `propmodel.py:957`, `1018`, `1056`, `1072-1087`, `1100`, `1108`, `1119-1122`, `1128`, `1192`) -/
structure Ext where
  /-- `opt.root` for two unknowns: function and first guess; `none` if not `success` -/
  root2 : (ℝ × ℝ → ℝ × ℝ) → ℝ × ℝ → Option (ℝ × ℝ)
  /-- `opt.root` for three unknowns -/
  root3 : (ℝ × ℝ × ℝ → ℝ × ℝ × ℝ) → ℝ × ℝ × ℝ → Option (ℝ × ℝ × ℝ)
  /-- `f.integrate(t')` from `f.t = t`, `f.y = y`: `f.successful()`, `f.t`, `f.y`.  The right-hand side has a state (`_tophat_guess`). -/
  step : (ℝ → ℝ → Act (ℝ × ℝ) ℝ) → (t y t' : ℝ) → Act (ℝ × ℝ) (Bool × ℝ × ℝ)
  /-- `interp1d(x, y, kind='cubic', fill_value='extrapolate')` -/
  cubic : List (ℝ × ℝ) → ℝ → ℝ
  /-- contents of uninitialised arrays -/
  junk : ℕ → ℝ

/-- a root or `RuntimeError` (`propmodel.py:957-964`, `1018-1023`, `1056-1062`, `1100-1114`, `1128-1135`, `1192-1197`) -/
def found {α : Type} : Option α → Except PyErr α
  | some x => .ok x
  | none => .error .runtime

/-- `scipy.integrate.trapz(y, x)` for arrays of length `N` (called from `propmodel.py:738`, `782`, `787`, `1005`, `1047`, `1172`, `1248-1258`) -/
noncomputable def trapz (N : ℕ) (y x : ℕ → ℝ) : ℝ := ∑ i ∈ Finset.range (N - 1), (x (i + 1) - x i) * (y i + y (i + 1)) / 2

/-- `_unity_array` (`propmodel.py:299`): 200 values -/
noncomputable def unity (i : ℕ) : ℝ := i / 199

/-- `_bgx` (`propmodel.py:305`) -/
noncomputable def bgx : ℝ := Real.tan (rad 4.8) / Real.sqrt (-Real.log 0.5)
/-- `_tang_profile_width_ratio` (`propmodel.py:306`) -/
noncomputable def widthRatio : ℝ := 1.5
/-- `_tang_profile_max_ratio` (`propmodel.py:307`) -/
noncomputable def maxRatio : ℝ := 0.1

/-! ### The equations that are solved -/

/-- `_root_of_equivalent_swirl_jet` (`propmodel.py:969-976`) -/
noncomputable def equivalent (Vs Ms Ls Rs : ℝ) (x : ℝ × ℝ) : ℝ × ℝ :=
  ((x.1 * (x.1 + Vs) - x.2 * x.2 / 2) * Rs * Rs / 2 - Ms, (x.1 + Vs) * x.2 * Rs * Rs * Rs / 3 - Ls)

open Classical in
/-- `w_L` (`propmodel.py:1045`, `1170`) at `r` -/
noncomputable def swirlL (c rwm wm r : ℝ) : ℝ := if r < rwm then wm * (r / rwm) else wm / (rwm - c) * (r - c)

/-- `m0-m1-(m2*m3)` (`propmodel.py:1032-1041`, `1157-1166`) -/
noncomputable def axialMom (Vs bg um wm : ℝ) : ℝ :=
  let c := bg * widthRatio
  let rwm := maxRatio * c
  let m0 := 0.25 * (bg * bg * um) * (um + 2 * Vs)
  let m1 := 0.5 * (wm * rwm / 2) ^ 2
  let m2 := 0.5 * (wm / (rwm - c)) ^ 2
  let m3 := -(3 * rwm ^ 4 - 8 * c * rwm ^ 3 + 6 * c * c * rwm * rwm - c ^ 4) / 12
  m0 - m1 - m2 * m3

/-- the integral in `L_zero` (`propmodel.py:1043-1047`, `1168-1172`) -/
noncomputable def angularMom (Vs bg um wm : ℝ) : ℝ :=
  let c := bg * widthRatio
  let rwm := maxRatio * c
  let r (i : ℕ) : ℝ := c * unity i
  trapz 200 (fun i => (um * Real.exp (-(r i / bg) ^ 2) + Vs) * swirlL c rwm wm (r i) * r i * r i) r

/-- `_root_of_similar_momentum` (`propmodel.py:1027-1049`); the unknowns are `bg`, `wm` -/
noncomputable def similar (Vs M L um : ℝ) (x : ℝ × ℝ) : ℝ × ℝ := (axialMom Vs x.1 um x.2 - M, angularMom Vs x.1 um x.2 - L)

/-- `_tophat_velocities` (`propmodel.py:1142-1148`); the unknowns are `U`, `W` -/
noncomputable def tophat (Vs B M L : ℝ) (x : ℝ × ℝ) : ℝ × ℝ :=
  (B * B / 2 * (x.1 * (x.1 + Vs) - x.2 * x.2 / 2) - M, B * B * B / 3 * (x.1 + Vs) * x.2 - L)

/-- `_self_similar_velocities` (`propmodel.py:1150-1174`); the unknowns are `bg`, `um`, `wm` -/
noncomputable def selfSimilar (Vs B M L U : ℝ) (x : ℝ × ℝ × ℝ) : ℝ × ℝ × ℝ :=
  (x.1 * x.1 * x.2.1 - B * B * U, axialMom Vs x.1 x.2.1 x.2.2 - M, angularMom Vs x.1 x.2.1 x.2.2 - L)

/-- `_tophat_at_xe` (`propmodel.py:1176-1184`); the unknowns are `B`, `U`, `W` -/
noncomputable def tophatAtXe (Vs bg um M L : ℝ) (x : ℝ × ℝ × ℝ) : ℝ × ℝ × ℝ :=
  (bg * bg * um - x.1 * x.1 * x.2.1, x.1 * x.1 / 2 * (x.2.1 * (x.2.1 + Vs) - x.2.2 * x.2.2 / 2) - M,
    x.1 * x.1 * x.1 / 3 * (x.2.1 + Vs) * x.2.2 - L)

/-- A cross-section in the zone of flow establishment: the arguments of `_calc_swirl_momentum_zfe`. (`propmodel.py:1206`) -/
structure Zfe where
  N : ℕ
  U : ℕ → ℝ
  W : ℕ → ℝ
  r : ℕ → ℝ
  Ms : ℝ
  Ls : ℝ
  Rs : ℝ
  b : ℝ
  c : ℝ
  blend : ℝ

namespace Zfe
variable (E : Ext) (Vs : ℝ) (z : Zfe) (sU sW : ℝ)

/-- `scaled_U` (`propmodel.py:875`, `1210`) -/
noncomputable def scU (i : ℕ) : ℝ := (z.U i - Vs) * sU + Vs
/-- `scaled_W` (`propmodel.py:876`, `1211`) -/
noncomputable def scW (i : ℕ) : ℝ := z.W i * sW
/-- `Rpc` (`propmodel.py:866`, `1213`) -/
noncomputable def Rpc : ℝ := (1 - z.blend) * z.Rs
/-- `Ume` (`propmodel.py:888-889`, `1215-1216`) -/
noncomputable def Ume : ℝ := npInterp z.N z.r (z.scU Vs sU) z.Rpc - Vs
/-- `c_xe` (`propmodel.py:893`, `1219`) -/
noncomputable def cXe : ℝ := z.c / z.blend
/-- `r_wm_xe` (`propmodel.py:894`, `1220`) -/
noncomputable def rwmXe : ℝ := z.cXe * maxRatio
/-- `r_1` (`propmodel.py:896`, `1222`) -/
noncomputable def r1 : ℝ := z.blend * z.rwmXe
/-- `r_2` (`propmodel.py:897`, `1223`) -/
noncomputable def r2 : ℝ := (1 - z.blend) * z.Rs + z.blend * z.rwmXe
/-- `r_3` (`propmodel.py:898`, `1224`) -/
noncomputable def r3 : ℝ := (1 - z.blend) * z.Rs + z.blend * z.cXe
/-- `r_w` (`propmodel.py:903`, `1228`) -/
noncomputable def rw (i : ℕ) : ℝ := z.r3 * unity i

open Classical in
/-- `W_visc` (`propmodel.py:905-912`, `1230-1237`); where `r_w` equals `r_1` or `r_2` nothing is assigned, and later assignments win -/
noncomputable def wVisc (i : ℕ) : ℝ :=
  if z.r2 < z.rw i then -(npInterp z.N z.r (z.scW sW) z.r2) / (z.r3 - z.r2) * (z.rw i - z.r3)
  else if z.r1 < z.rw i ∧ z.rw i < z.r2 then npInterp z.N z.r (z.scW sW) (z.rw i)
  else if z.rw i < z.r1 then z.rw i / z.r1 * npInterp z.N z.r (z.scW sW) z.r1
  else E.junk i

open Classical in
/-- the axial velocity at `r` (`propmodel.py:919`, `1242`) -/
noncomputable def uAt (r : ℝ) : ℝ :=
  if r < z.Rpc then npInterp z.N z.r (z.scU Vs sU) r
  else z.Ume Vs sU * Real.exp (-((r - z.Rpc) / z.b) ^ 2) + Vs

open Classical in
/-- `Ax1` (`propmodel.py:1247-1248`) -/
noncomputable def ax1 : ℝ :=
  trapz z.N (fun i => if z.r i < z.Rpc then z.scU Vs sU i * (z.scU Vs sU i - Vs) * z.r i else 0) z.r

/-- `Ax2` (`propmodel.py:1249`) -/
noncomputable def ax2 : ℝ :=
  0.5 * z.Ume Vs sU * z.Ume Vs sU * z.b * (Real.sqrt Real.pi * z.Rpc * (1 / Real.sqrt 2 + Vs / z.Ume Vs sU) +
    z.b * (0.5 + Vs / z.Ume Vs sU))

/-- `Tang` (`propmodel.py:1252`) -/
noncomputable def tang : ℝ := -0.5 * trapz 200 (fun i => z.wVisc E sW i * z.wVisc E sW i * z.rw i) z.rw

/-- the integral in `L_zero` (`propmodel.py:1258`) -/
noncomputable def angular : ℝ := trapz 200 (fun i => z.uAt Vs sU (z.rw i) * z.wVisc E sW i * z.rw i * z.rw i) z.rw

/-- `_calc_swirl_momentum_zfe` (`propmodel.py:1206-1260`); the unknowns are `scale_U`, `scale_W` -/
noncomputable def residual (x : ℝ × ℝ) : ℝ × ℝ :=
  (z.ax1 Vs x.1 + z.ax2 Vs x.1 + z.tang E x.2 - z.Ms, z.angular E Vs x.1 x.2 - z.Ls)

end Zfe

/-! ### The inviscid slipstream -/

section
variable {ι : Type} (M : PropM ι) (Vs n : ℝ) (c : Coefs) (E : Ext)

/-- `centerline_dist` (`propmodel.py:721`) -/
noncomputable def coneX (p : V3) : ℝ := dot (p - M.geom.position) (-M.fwd)
/-- `center2point_vec` (`propmodel.py:722-723`) -/
noncomputable def coneOff (p : V3) : V3 := p - (M.geom.position + coneX M p • (-M.fwd))
/-- `r_cp` (`propmodel.py:724`) -/
noncomputable def coneR (p : V3) : ℝ := nrm (coneOff M p)
/-- `stream_loc` (`propmodel.py:726`) -/
def InCone (p : V3) : Prop := |coneR M p| ≤ M.d / 2 + coneX M p ∧ 0 < coneX M p

/-- `Me_prop` (`propmodel.py:738`) -/
noncomputable def meProp : ℝ :=
  2 * Real.pi * trapz M.nodes (fun i => vxiAt M n c i * (vxiAt M n c i + Vs) * (M.stn i).r) fun i => (M.stn i).r
/-- `Uo_prop` (`propmodel.py:739`) -/
noncomputable def uoProp : ℝ :=
  0.5 * (Vs + Real.sqrt (Vs * Vs + 4 * meProp M Vs n c / Real.pi / (M.d / 2) / (M.d / 2)))
/-- `x_end` (`propmodel.py:742`) before the correction -/
noncomputable def xEnd0 : ℝ :=
  M.d * Real.sqrt (1 + Vs / uoProp M Vs n c) / (Real.sqrt 2 * bgx * (1 - Vs / uoProp M Vs n c))
/-- no division by zero and no root of a negative number in `propmodel.py:738-742` -/
def EndFinite : Prop :=
  M.d ≠ 0 ∧ 0 ≤ Vs * Vs + 4 * meProp M Vs n c / Real.pi / (M.d / 2) / (M.d / 2) ∧ uoProp M Vs n c ≠ 0 ∧
    0 ≤ 1 + Vs / uoProp M Vs n c ∧ 1 - Vs / uoProp M Vs n c ≠ 0

open Classical in
/-- `kd` (`propmodel.py:751-756`) -/
noncomputable def devel (x : ℝ) : ℝ :=
  let R := M.d / 2
  let xmax := 0.1875 * M.d
  if xmax < x then 1 + 2 * xmax / Real.sqrt (xmax * xmax + R * R) else 1 + 2 * x / Real.sqrt (x * x + R * R)

/-- `Kv` (`propmodel.py:766`) -/
noncomputable def kvG (kd : ℝ) (i : ℕ) : ℝ := (2 * Vs + vx2 M n c i) / (2 * Vs + kd * vx2 M n c i)
/-- `r_prime` (`propmodel.py:761-769`) -/
noncomputable def rG (kd : ℝ) : ℕ → ℝ
  | 0 => 0.001 * M.d
  | i + 1 => Real.sqrt (rG kd i * rG kd i + ((M.stn (i + 1)).r * (M.stn (i + 1)).r - (M.stn i).r * (M.stn i).r) * kvG M Vs n c kd i)
/-- `Vxi_prime` (`propmodel.py:771`) -/
noncomputable def vxG (kd : ℝ) (i : ℕ) : ℝ := vxiAt M n c i * kd
/-- `Vti_prime` (`propmodel.py:772`) -/
noncomputable def vt0 (kd : ℝ) (i : ℕ) : ℝ := vtiAt M n c i * 2 * ((M.stn i).r / rG M Vs n c kd i)
/-- `hub_Vt` (`propmodel.py:776`): `np.interp` continues with the values at the ends -/
noncomputable def hubVt (kd : ℝ) : ℝ :=
  interpFill ((List.range M.nodes).map fun i => (rG M Vs n c kd i, vt0 M Vs n c kd i)) (M.geom.hubDiameter / 2)
open Classical in
/-- `Vti_prime` inside the hub (`propmodel.py:774-777`) -/
noncomputable def vtG (kd : ℝ) (i : ℕ) : ℝ :=
  let hub := M.geom.hubDiameter / 2
  if rG M Vs n c kd i < hub then hubVt M Vs n c kd * (rG M Vs n c kd i / hub) else vt0 M Vs n c kd i
/-- `Ms` (`propmodel.py:780-782`) -/
noncomputable def msG (kd : ℝ) : ℝ :=
  trapz M.nodes (fun i => (vxG M n c kd i * (vxG M n c kd i + Vs) - 0.5 * (vtG M Vs n c kd i * vtG M Vs n c kd i)) * rG M Vs n c kd i)
    (rG M Vs n c kd)
/-- `Ls` (`propmodel.py:785-787`) -/
noncomputable def lsG (kd : ℝ) : ℝ :=
  trapz M.nodes (fun i => (vxG M n c kd i + Vs) * vtG M Vs n c kd i * rG M Vs n c kd i * rG M Vs n c kd i) (rG M Vs n c kd)
/-- `Rs` (`propmodel.py:789`) -/
noncomputable def rsG (kd : ℝ) : ℝ := rG M Vs n c kd (M.nodes - 1)
/-- no division by zero and no root of a negative number in `propmodel.py:751-806` -/
def DiscFinite (kd : ℝ) : Prop :=
  (∀ i, i + 1 < M.nodes → 2 * Vs + kd * vx2 M n c i ≠ 0 ∧ 0 ≤ rG M Vs n c kd i * rG M Vs n c kd i +
    ((M.stn (i + 1)).r * (M.stn (i + 1)).r - (M.stn i).r * (M.stn i).r) * kvG M Vs n c kd i) ∧
  (∀ i, i < M.nodes → rG M Vs n c kd i ≠ 0) ∧ msG M Vs n c kd ≠ 0 ∧
  Real.cos (rad (4.8 + 14 * (lsG M Vs n c kd / msG M Vs n c kd / rsG M Vs n c kd))) ≠ 0

/-- `bt` (`propmodel.py:803-809`) -/
noncomputable def btG (kd : ℝ) : ℝ :=
  let S := lsG M Vs n c kd / msG M Vs n c kd / rsG M Vs n c kd
  Real.sqrt 2 * (Real.tan (rad (4.8 + 14 * S)) / Real.sqrt (-Real.log 0.5) - bgx)

/-- `_equivalent_swirl_jet` (`propmodel.py:950-966`): each root is the guess for the next one -/
noncomputable def equivJets : List ℝ → ℝ × ℝ → Except PyErr (List (ℝ × ℝ × ℝ))
  | [], _ => .ok []
  | kd :: t, guess => do
    let x ← found (E.root2 (equivalent Vs (msG M Vs n c kd) (lsG M Vs n c kd) (rsG M Vs n c kd)) guess)
    let l ← equivJets t x
    return (kd, x) :: l

open Classical in
/-- the entry of `kd` in a table (`propmodel.py:797-801`) -/
noncomputable def look (l : List (ℝ × ℝ × ℝ)) (kd : ℝ) : ℝ × ℝ :=
  ((l.find? fun e => e.1 = kd).map Prod.snd).getD (0, 0)
end

/-! ### Zone of flow establishment and zone of established flow -/

/-- The functions of `x` made in `propmodel.py:811-815`. -/
structure Fields where
  Ms : ℝ → ℝ
  Ls : ℝ → ℝ
  du : ℝ → ℝ
  dw : ℝ → ℝ
  bt : ℝ → ℝ

open Classical in
/-- `interp1d(x[-N:], v[-N:], kind='linear', bounds_error=False, fill_value=(0, v[-1]))` on `np.linspace(0, top, 100)` (`propmodel.py:811-815`) -/
noncomputable def onGrid (top : ℝ) (v : ℝ → ℝ) (x : ℝ) : ℝ :=
  let g (i : ℕ) : ℝ := top * i / 99
  if x < g 0 then 0 else if g 99 < x then v (g 99) else pwl ((List.range 100).map fun i => (g i, v (g i))) x

section
variable (E : Ext) (Vs : ℝ)

/-- `spread_bg` (`propmodel.py:999-1005`) -/
noncomputable def spread (F : Fields) (xe : ℝ) : ℝ :=
  let x (i : ℕ) : ℝ := xe * unity i
  trapz 200 (fun i => (Real.sqrt 2 * bgx * |F.du (x i) / 2| + F.bt (x i) * |F.dw (x i) / 2|) /
    Real.sqrt ((Vs + F.du (x i) / 2) * (Vs + F.du (x i) / 2) + F.dw (x i) / 2 * (F.dw (x i) / 2))) x

/-- `_swirl_xe_imbalance` and `_similar_momentum` (`propmodel.py:998-1025`): `spread_bg`, `similar_bg`, `um`, `wm` -/
noncomputable def imbalance (F : Fields) (xe : ℝ) : Except PyErr (ℝ × ℝ × ℝ × ℝ) := do
  let sp := spread Vs F xe
  let um := 0.8 * F.du (xe * unity 199)
  let x ← found (E.root2 (similar Vs (F.Ms xe) (F.Ls xe) um) (sp, F.dw (xe * unity 199)))
  return (sp, x.1, um, x.2)

open Classical in
/-- the `while True` loop of `_find_swirl_xe` (`propmodel.py:986-996`): `xe`, `b_xe`, `um_xe`, `wm_xe` -/
noncomputable def xeLoop (F : Fields) : ℕ → (xe0 xe1 imbal0 : ℝ) → ℝ × ℝ × ℝ × ℝ → Except PyErr (ℝ × ℝ × ℝ × ℝ)
  | 0, _, _, _, _ => .error .recursion
  | fuel + 1, xe0, xe1, imbal0, v =>
    let imbal1 := v.1 - v.2.1
    if imbal1 - imbal0 = 0 then .error .nonfinite
    else
      let xe2 := xe1 - imbal1 * (xe1 - xe0) / (imbal1 - imbal0)
      if |xe2 - xe1| < 1e-12 then .ok (xe2, v.1, v.2.2.1, v.2.2.2)
      else do
        let w ← imbalance E Vs F xe2
        xeLoop F fuel xe1 xe2 imbal1 w

/-- `_find_swirl_xe` (`propmodel.py:978-996`) -/
noncomputable def findXe (F : Fields) (fuel : ℕ) (xend : ℝ) : Except PyErr (ℝ × ℝ × ℝ × ℝ) := do
  let v0 ← imbalance E Vs F xend
  let v1 ← imbalance E Vs F (xend * 1.2)
  xeLoop E Vs F fuel xend (xend * 1.2) (v0.1 - v0.2.1) v1

/-- `_expansion_rate_ZEF` (`propmodel.py:1124-1140`) -/
noncomputable def expansion (M L bt : ℝ) (_x B : ℝ) : Act (ℝ × ℝ) ℝ := do
  let guess ← Act.get
  let s ← Act.lift (found (E.root2 (tophat Vs B M L) guess))
  Act.change fun _ => s
  return (Real.sqrt 2 * bgx * |s.1| + bt * |s.2|) / Real.sqrt ((Vs + s.1) * (Vs + s.1) + s.2 * s.2)

/-- the stepping loop of `_integrate_ZEF` (`propmodel.py:1083-1087`): the stations after the first -/
noncomputable def march (M L bt dx maxX : ℝ) : ℕ → (ok : Bool) → (x B : ℝ) → Act (ℝ × ℝ) (List (ℝ × ℝ))
  | 0, _, _, _ => Act.raise .recursion
  | fuel + 1, ok, x, B => open Classical in
    if ok ∧ x < maxX then do
      let s ← E.step (expansion E Vs M L bt) x B (x + dx)
      let l ← march M L bt dx maxX fuel s.1 s.2.1 s.2.2
      return (s.2.1, s.2.2) :: l
    else return []

/-- A station of the zone of established flow: top-hat profile (`B`, `U`, `W`) and self-similar profile (`bg`, `um`, `wm`). (`propmodel.py:1092-1122`) -/
structure Station where
  x : ℝ
  B : ℝ
  U : ℝ
  W : ℝ
  bg : ℝ
  um : ℝ
  wm : ℝ

/-- the loop over the stations (`propmodel.py:1097-1115`) -/
noncomputable def stations (M L : ℝ) : List (ℝ × ℝ) → ℝ × ℝ → ℝ × ℝ × ℝ → Except PyErr (List Station)
  | [], _, _ => .ok []
  | (x, B) :: t, gTop, gSelf => do
    let u ← found (E.root2 (tophat Vs B M L) gTop)
    let s ← found (E.root3 (selfSimilar Vs B M L u.1) gSelf)
    let l ← stations M L t u s
    return ⟨x, B, u.1, u.2, s.1, s.2.1, s.2.2⟩ :: l

/-- `_integrate_ZEF` (`propmodel.py:1052-1122`) -/
noncomputable def integrateZEF (fuel : ℕ) (bg M L um wm xe bt maxX : ℝ) : Except PyErr (List Station) := do
  let s ← found (E.root3 (tophatAtXe Vs bg um M L) (bg, um / 2, wm / 2))
  let l ← (march E Vs M L bt (xe / 50) maxX fuel true xe s.1 (s.2.1, s.2.2)).1
  stations E Vs M L ((xe, s.1) :: l) (s.2.1, s.2.2) (bg, um, wm)

/-- `_conserve_swirl_momentum` (`propmodel.py:1186-1204`): the scales of the cross-sections, each the guess for the next one -/
noncomputable def conserve (sec : ℝ → Zfe) : List ℝ → ℝ × ℝ → Except PyErr (List (ℝ × ℝ × ℝ))
  | [], _ => .ok []
  | x :: t, guess => do
    let s ← found (E.root2 ((sec x).residual E Vs) guess)
    let l ← conserve sec t s
    return (x, s) :: l

open Classical in
/-- `Vt` in the zone of established flow (`propmodel.py:927-933`, zero where nothing is assigned) -/
noncomputable def swirlZef (b wm r : ℝ) : ℝ :=
  let c := b * widthRatio
  let rwm := maxRatio * c
  if rwm < r ∧ r < c then -wm / (c - rwm) * (r - c) else if r < rwm then r / rwm * wm else 0

/-- `Vx` in the zone of established flow (`propmodel.py:935-940`), less `Vs` -/
noncomputable def axialZef (b um r : ℝ) : ℝ := um * Real.exp (-(r / b) ^ 2)

end

/-! ### The whole function -/

section
variable {ι : Type} (M : PropM ι) (E : Ext) (Vs n : ℝ) (c : Coefs)

/-- the cross-section at `x` (`propmodel.py:857-873`) -/
noncomputable def section_ (jets : List (ℝ × ℝ × ℝ)) (xe bxe x : ℝ) : Zfe :=
  let kd := devel M x
  let blend := x / xe
  let b := bxe * (x / xe)
  let j := look jets kd
  { N := M.nodes
    U := fun i => (1 - blend) * vxG M n c kd i + blend * j.1 + Vs
    W := fun i => (1 - blend) * vtG M Vs n c kd i + blend * j.2
    r := rG M Vs n c kd
    Ms := msG M Vs n c kd, Ls := lsG M Vs n c kd, Rs := rsG M Vs n c kd
    b, c := b * widthRatio, blend }

/-- What is known when the velocities are written. (`propmodel.py:811-948`) -/
structure Solved where
  jets : List (ℝ × ℝ × ℝ)
  xe : ℝ
  bxe : ℝ
  um : ℝ
  wm : ℝ
  /-- `M_xe`, `L_xe` -/
  Mxe : ℝ
  Lxe : ℝ
  /-- the stations, if there are points behind `xe` -/
  zef : Option (List Station)
  scales : List (ℝ × ℝ × ℝ)

open Classical in
/-- `Vx`, `Vt` (`propmodel.py:878-940`) at distance `x` behind the disc, `r` off the axis.  At `x = xe` nothing is assigned to the zeros. -/
noncomputable def velocity (s : Solved) (x r : ℝ) : ℝ × ℝ :=
  let v : ℝ × ℝ :=
    if x < s.xe then
      let z := section_ M Vs n c s.jets s.xe s.bxe x
      let sc := look s.scales x
      (z.uAt Vs sc.1 r, npInterp 200 z.rw (z.wVisc E sc.2) r)
    else if s.xe < x then
      match s.zef with
      | none => (0, 0)
      | some l =>
        let b := E.cubic (l.map fun t => (t.x, t.bg)) x
        (axialZef b (E.cubic (l.map fun t => (t.x, t.um)) x) r + Vs, swirlZef b (E.cubic (l.map fun t => (t.x, t.wm)) x) r)
    else (0, 0)
  (v.1 - Vs, v.2)

open Classical in
/-- `_find_propwash_velocities_Goates` (`propmodel.py:718-873`) up to the scales: `xs` are the distances of the points in the stream.
`np.amax` of an empty array raises `ValueError`. -/
noncomputable def solveJet (fuel : ℕ) (xs : List ℝ) : Except PyErr Solved := do
  let maxX ← (match xs.max? with | some x => Except.ok x | none => Except.error PyErr.value)
  if ¬ EndFinite M Vs n c then .error .nonfinite
  else
    let xend := if xEnd0 M Vs n c < maxX then maxX else xEnd0 M Vs n c
    let top := 1.5 * xend
    let kds := ((xs ++ (List.range 100).map fun (i : ℕ) => top * i / 99).map (devel M)).toFinset.sort (· ≤ ·)
    if ¬ ∀ kd ∈ kds, DiscFinite M Vs n c kd then .error .nonfinite
    else
      let jets ← equivJets M Vs n c E kds (100, 100)
      let F : Fields :=
        { Ms := onGrid top fun x => msG M Vs n c (devel M x)
          Ls := onGrid top fun x => lsG M Vs n c (devel M x)
          du := onGrid top fun x => (look jets (devel M x)).1
          dw := onGrid top fun x => (look jets (devel M x)).2
          bt := onGrid top fun x => btG M Vs n c (devel M x) }
      let e ← findXe E Vs F fuel xend
      let zef ← (if e.1 < maxX then do
          let l ← integrateZEF E Vs fuel e.2.1 (F.Ms e.1) (F.Ls e.1) e.2.2.1 e.2.2.2 e.1 (F.bt e.1) maxX
          return some l
        else return none)
      let ux := xs.toFinset.sort (· ≤ ·)
      let scales ← conserve E Vs (section_ M Vs n c jets e.1 e.2.1) (ux.filter (· < e.1)) (1, 1)
      return { jets, xe := e.1, bxe := e.2.1, um := e.2.2.1, wm := e.2.2.2, Mxe := F.Ms e.1, Lxe := F.Ls e.1, zef, scales }

open Classical in
/-- `_find_propwash_velocities_Goates` (`propmodel.py:718-948`).  On the axis `center2point_vec/r_cp` is `nan`. -/
noncomputable def goates (fuel : ℕ) (pts : List V3) : Except PyErr (List V3) := do
  let s ← solveJet M E Vs n c fuel ((pts.filter fun p => InCone M p).map (coneX M))
  if ∃ p ∈ pts, InCone M p ∧ coneR M p = 0 then .error .nonfinite
  else
    return pts.map fun p =>
      if InCone M p then
        let v := velocity M E Vs n c s (coneX M p) (coneR M p)
        v.2 • cross M.fwd ((1 / coneR M p) • coneOff M p) + v.1 • (-M.fwd)
      else 0

end

end Verif.Goates
