import Verif.Model.MU
import Mathlib.LinearAlgebra.Matrix.NonsingularInverse
import Mathlib.Data.Matrix.Mul
import Mathlib.Analysis.SpecialFunctions.Trigonometric.Arctan

/-!
# Model of `MachUp.find_aero_center` (`MU.py:374-515`)

Simplification: a division by zero (`nan`/`inf` in the code) ends the run with `.nonfinite`.
-/

namespace Verif
open V3 Matrix

/-- one row of the arrays `alpha` (in radians), `CN`, `CA`, `Cm` (`MU.py:431-435`) -/
structure ACPoint where
  a : ℝ
  CN : ℝ
  CA : ℝ
  Cm : ℝ

/-- `CN*ca-CA*sa` (`MU.py:440`) -/
noncomputable def ACPoint.CL (p : ACPoint) : ℝ := p.CN * Real.cos p.a - p.CA * Real.sin p.a
/-- `CA*ca+CN*sa` (`MU.py:441`) -/
noncomputable def ACPoint.CD (p : ACPoint) : ℝ := p.CA * Real.cos p.a + p.CN * Real.sin p.a

/-- `np.sum` over the sample (`MU.py:444-483`) -/
def sumOver (S : List ACPoint) (f : ACPoint → ℝ) : ℝ := (S.map f).sum

open Classical in
/-- `np.arctan(…)` (`MU.py:444-450`) -/
noncomputable def fitAL0 (S : List ACPoint) : Option ℝ :=
  let sCLca := sumOver S fun p => p.CL * Real.cos p.a
  let ss2a := sumOver S fun p => Real.sin p.a * Real.sin p.a
  let sCLsa := sumOver S fun p => p.CL * Real.sin p.a
  let ssaca := sumOver S fun p => Real.sin p.a * Real.cos p.a
  let sc2a := sumOver S fun p => Real.cos p.a * Real.cos p.a
  if sCLca * ssaca - sCLsa * sc2a = 0 then none
  else some (Real.arctan ((sCLca * ss2a - sCLsa * ssaca) / (sCLca * ssaca - sCLsa * sc2a)))

open Classical in
/-- `CL0_a` (`MU.py:452-453`) -/
noncomputable def fitSlope (S : List ACPoint) (aL0 : ℝ) : Option ℝ :=
  let ta0 := Real.tan aL0
  let den := sumOver S fun p => (Real.sin p.a - ta0 * Real.cos p.a) ^ 2
  if den = 0 then none
  else some (sumOver S (fun p => p.CL * (Real.sin p.a - ta0 * Real.cos p.a)) / den)

open Classical in
/-- `np.matmul(np.linalg.inv(LHS), RHS)` (`MU.py:468-470`, `488-491`); `none` is `LinAlgError`. -/
noncomputable def solve3 (M : Matrix (Fin 3) (Fin 3) ℝ) (r : Fin 3 → ℝ) : Option (Fin 3 → ℝ) :=
  if M.det = 0 then none else some (M⁻¹ *ᵥ r)

/-- `CD0,CD0_L,CD0_L2` (`MU.py:456-470`) -/
noncomputable def fitDrag (S : List ACPoint) : Option (Fin 3 → ℝ) :=
  let sCL := sumOver S fun p => p.CL
  let sCL2 := sumOver S fun p => p.CL * p.CL
  let sCL3 := sumOver S fun p => p.CL * p.CL * p.CL
  let sCL4 := sumOver S fun p => p.CL * p.CL * p.CL * p.CL
  let sCD := sumOver S fun p => p.CD
  let sCDCL := sumOver S fun p => p.CD * p.CL
  let sCDCL2 := sumOver S fun p => p.CD * p.CL * p.CL
  solve3 !![(S.length : ℝ), sCL, sCL2; sCL, sCL2, sCL3; sCL2, sCL3, sCL4] ![sCD, sCDCL, sCDCL2]

/-- `Cm0_a,Cm_N,Cm_A` (`MU.py:472-491`) -/
noncomputable def fitMoment (S : List ACPoint) : Option (Fin 3 → ℝ) :=
  let ss22a := sumOver S fun p => Real.sin (2 * p.a) * Real.sin (2 * p.a)
  let ss2aCN := sumOver S fun p => Real.sin (2 * p.a) * p.CN
  let ss2aCA := sumOver S fun p => Real.sin (2 * p.a) * p.CA
  let sCN2 := sumOver S fun p => p.CN * p.CN
  let sCNCA := sumOver S fun p => p.CN * p.CA
  let sCA2 := sumOver S fun p => p.CA * p.CA
  let sCms2a := sumOver S fun p => p.Cm * Real.sin (2 * p.a)
  let sCmCN := sumOver S fun p => p.Cm * p.CN
  let sCmCA := sumOver S fun p => p.Cm * p.CA
  solve3 !![ss22a, ss2aCN, ss2aCA; ss2aCN, sCN2, sCNCA; ss2aCA, sCNCA, sCA2] ![sCms2a, sCmCN, sCmCA]

/-- `np.arange(-10,10,0.05)` (`MU.py:423`) -/
noncomputable def acAngles : List ℝ := (List.range 400).map fun (k : ℕ) => -10 + 0.05 * (k : ℝ)

variable {ι : Type} {B : Backend ι}

/-- the sweep (`MU.py:424-429`): angle and loads -/
noncomputable def acSweep (ps : Option B.π) : List ℝ → Act (World B) (List (ℝ × Loads))
  | [] => return []
  | x :: xs => do
    setAlpha x
    let r ← muSolve ps
    let rs ← acSweep ps xs
    return (x, r) :: rs

/-- `CN`, `CA`, `Cm` and `alpha` (`MU.py:431-435`) -/
noncomputable def acPoint (DP long : ℝ) (s : ℝ × Loads) : ACPoint where
  a := rad s.1
  CN := -s.2.FZ / DP
  CA := -s.2.FX / DP
  Cm := s.2.MY / DP / long

/-- turn a missing number into an exception (auxiliary; for example the division `MU.py:450`) -/
def Act.orRaise {S α : Type} (e : PyErr) : Option α → Act S α
  | some a => Act.ret a
  | none => Act.raise e

open Classical in
/-- `Xac`, `Zac` and `ac_loc` (`MU.py:493-499`) -/
noncomputable def acLoc (long ao aL0 A : ℝ) (cd cm : Fin 3 → ℝ) (cg : V3) : Option V3 :=
  let alphao := rad ao
  let den := 2 * A + 3 * cd 0 - 2 * cd 2 * A * A
  if A = 0 ∨ den = 0 then none
  else
    let Xac := -long * (-((4 + 2 * cd 0 / A + (12 * alphao * alphao - 4) * cd 2 * A) / den) * cm 0 - cm 1)
    let Zac := -long * ((4 * aL0 + 4 * cd 1 + 12 * alphao * cd 2 * A) / den * cm 0 + cm 2)
    some ⟨Xac + cg.x, 0, Zac + cg.z⟩

open Classical in
/-- `find_aero_center` with a non-empty `aero_state` (`MU.py:418-499`); `cg` is the centre of gravity of the grid. -/
noncomputable def acBody (ps : Option B.π) (cg : V3) : Act (World B) V3 := do
  let ao ← getAero fun d => d.alpha.getD 0
  let DP ← dynPressure
  let rows ← acSweep ps acAngles
  if DP = 0 ∨ B.long = 0 then Act.raise .nonfinite
  else
    let S := rows.map (acPoint DP B.long)
    let aL0 ← Act.orRaise .nonfinite (fitAL0 S)
    let A ← Act.orRaise .nonfinite (fitSlope S aL0)
    let cd ← Act.orRaise .linAlg (fitDrag S)
    let cm ← Act.orRaise .linAlg (fitMoment S)
    Act.orRaise .nonfinite (acLoc B.long ao aL0 A cd cm cg)

/-- `find_aero_center` (`MU.py:374-515`) -/
noncomputable def findAeroCenter (ps : Option B.π) (cg : V3) (filename : Option String) : Act (World B) V3 := do
  let w ← Act.get
  if aeroGiven w then
    let r ← acBody ps cg
    writeFile filename (.center r.x r.z)
    return r
  else
    let (r, _) ← withAero defaultAeroDict (acBody ps cg)
    writeFile filename (.center r.x r.z)
    return r

end Verif
