import Mathlib.Analysis.SpecialFunctions.Trigonometric.Inverse

/-!
# Specification: the balance that determines the induced angle of a blade element
-/

namespace Verif

/-- Blade-element lift against the circulation of the wake with Prandtl's tip loss, for `B` blades of chord `c` at radius `r` of a
propeller with radius `R` and pitch angle `tip` at the tip; the element has advance angle `einf`, induced angle `ei` and lift
coefficient `CL`.  The induced angle is right if this is zero. -/
noncomputable def imbalance (B c r R tip einf ei CL : ℝ) : ℝ :=
  B * c / (16 * r) * CL - Real.arccos (Real.exp (-(B * (1 - r / R) / (2 * Real.sin tip)))) * Real.tan ei * Real.sin (einf + ei)

end Verif
