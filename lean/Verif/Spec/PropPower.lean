import Verif.Spec.PropElement

/-!
# Specification: power of a propeller
-/

namespace Verif

/-- A quadrature rule that adds up, and whose value is not negative for non-negative ordinates at evenly spaced abscissae. -/
structure PositiveRule (simps : List ℝ → List ℝ → ℝ) : Prop where
  add : ∀ (N : ℕ) (x y z : ℕ → ℝ), overRadius simps N x (fun i => y i + z i) = overRadius simps N x y + overRadius simps N x z
  pos : ∀ (N : ℕ) (x0 h : ℝ) (y : ℕ → ℝ), 0 < h → (∀ i, i < N → 0 ≤ y i) → 0 ≤ overRadius simps N (fun i => x0 + i * h) y

/-- the trapezoidal rule with two points -/
def TwoPoints (simps : List ℝ → List ℝ → ℝ) : Prop := ∀ x0 x1 y0 y1 : ℝ, simps [y0, y1] [x0, x1] = (x1 - x0) * (y0 + y1) / 2

/-- power that goes into the shaft of a propeller with `n` revolutions per second, on which the air exerts the torque `l` about the
axis; `sense` is the sense of rotation -/
noncomputable def shaftPower (sense n l : ℝ) : ℝ := 2 * Real.pi * n * (-sense * l)

end Verif
