import Mathlib.Analysis.SpecialFunctions.Trigonometric.Basic

/-!
# Specification: velocities at a blade element (C149)

In the plane of the axis and the direction of rotation, a blade element at the radius `r` of a propeller turning `n` times a second
meets the air with the axial velocity `V` and the tangential velocity `2 pi n r`.  The propeller speeds the air up by `Vx` along the
axis and drags it along by `Vt`.
-/

namespace Verif

/-- The angles `advance` (between the disc and the velocity without the propeller's own effect) and `induced` (by which the propeller
turns it), and the velocities `Vi`, `Vx`, `Vt` the propeller induces, belong together. -/
structure VelocityTriangle (V n r advance induced Vi Vx Vt : ℝ) : Prop where
  /-- the velocity of advance and rotation has the angle `advance` to the disc -/
  undisturbed : ∃ W, (0 < n * r → 0 < W) ∧ V = W * Real.sin advance ∧ 2 * Real.pi * n * r = W * Real.cos advance
  /-- the velocity together with the induced one has the angle `advance + induced` to the disc -/
  disturbed : ∃ W, (0 < n * r → 0 < W) ∧ V + Vx = W * Real.sin (advance + induced) ∧ 2 * Real.pi * n * r - Vt = W * Real.cos (advance + induced)
  /-- the induced velocity is perpendicular to what results -/
  perpendicular : Vx * (V + Vx) - Vt * (2 * Real.pi * n * r - Vt) = 0
  /-- `Vi` is its magnitude, up to sign -/
  magnitude : Vi ^ 2 = Vx ^ 2 + Vt ^ 2

end Verif
