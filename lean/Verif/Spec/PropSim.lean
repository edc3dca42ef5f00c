import Verif.Model.PropSolve

/-!
# Specification vocabulary: operating states of propellers at another speed or size
-/

namespace Verif

/-- The rotation rates in the operating states of one propeller multiplied by `r`; advance ratios are left alone. -/
noncomputable def scaleRate (r : ℝ) (d : List (String × ℝ)) : List (String × ℝ) :=
  d.map fun kv => (kv.1, if kv.1 = "rot_per_sec" then r * kv.2 else kv.2)

/-- The same for an entry of a `prop_state`: a number under `key`, or the operating state of the propeller `key`. -/
noncomputable def PSVal.scaleRate (r : ℝ) (key : String) : PSVal → PSVal
  | .num x => .num (if key = "rot_per_sec" then r * x else x)
  | .dict d => .dict (Verif.scaleRate r d)

/-- All rotation rates in a `prop_state` multiplied by `r`, also those given under the name of a propeller. -/
noncomputable def PropDict.scaleRates (r : ℝ) (ps : PropDict) : PropDict := ps.map fun kv => (kv.1, kv.2.scaleRate r kv.1)

/-- The `prop_state` mentions neither `brake_power` nor `electric_throttle`: the propellers are driven at given advance
ratios or rotation rates. -/
def PropDict.NoPower (ps : PropDict) : Prop :=
  ∀ kv ∈ ps, kv.1 ≠ "brake_power" ∧ kv.1 ≠ "electric_throttle" ∧
    ∀ d, kv.2 = .dict d → ∀ kv' ∈ d, kv'.1 ≠ "brake_power" ∧ kv'.1 ≠ "electric_throttle"

end Verif
