import Verif.Model.PropSolve

/-!
# Model of `PropModel._find_propwash_velocities` (`propmodel.py:661-713`)

Stone's slipstream at arbitrary points, without a wing.  The code is a copy of `_calc_immersed_wing_points`, `_calc_prop_wing_vel` and
`_stone_slipstream`, which are modelled in `Model/PropSolve.lean`; what the copy shares with them is not repeated.
-/

namespace Verif
open V3

variable {ι : Type} (M : PropM ι) (V n : ℝ) (c : Coefs)

/-- `r_prime` (`propmodel.py:686-692`): the core has a hundredth of the radius of the first blade section -/
noncomputable def washR (s : ℝ) : ℕ → ℝ
  | 0 => 0.01 * (M.stn 0).r
  | i + 1 => Real.sqrt (washR s i * washR s i +
      ((M.stn (i + 1)).r * (M.stn (i + 1)).r - (M.stn i).r * (M.stn i).r) * stoneKv M V n c s i)

/-- `Vti_prime` (`propmodel.py:695-697`) -/
noncomputable def washVt (s : ℝ) (i : ℕ) : ℝ :=
  let j := M.nodes / 10
  if j ≤ i then 2 * vtiAt M n c i * (M.stn i).r / washR M V n c s i
  else (2 * vtiAt M n c j * (M.stn j).r / washR M V n c s j) / washR M V n c s j * washR M V n c s i

/-- no division by zero and no root of a negative number in `propmodel.py:684-697` -/
def WashFinite (s : ℝ) : Prop :=
  (∀ i, i + 1 < M.nodes → 2 * V + stoneKd M s * vx2 M n c i ≠ 0 ∧
    0 ≤ washR M V n c s i * washR M V n c s i +
      ((M.stn (i + 1)).r * (M.stn (i + 1)).r - (M.stn i).r * (M.stn i).r) * stoneKv M V n c s i) ∧
  ∀ i, i < M.nodes → washR M V n c s i ≠ 0

open Classical in
/-- the row of `_find_propwash_velocities` (`propmodel.py:661-713`) for one control point.  The points inside the cylinder are those of
`_calc_immersed_wing_points`; `tangent_vec` (`propmodel.py:669`) divides by the distance from the axis before the cross product. -/
noncomputable def washVel (p : V3) : Except PyErr V3 :=
  if InStream M p then
    let s := -streamT M p
    if ¬ WashFinite M V n c s then .error .nonfinite
    else if axisDist M p = 0 then .error .nonfinite
    else
      let Vx := npInterp M.nodes (washR M V n c s) (vxPrime M n c s) (axisDist M p)
      let Vt := npInterp M.nodes (washR M V n c s) (washVt M V n c s) (axisDist M p) * M.rot
      .ok (Vt • cross M.fwd ((1 / axisDist M p) • offAxis M p) + Vx • (-M.fwd))
  else .ok 0

end Verif
