import Verif.Spec.Geometry

/-!
# Specification vocabulary: a two-sided wing added as two one-sided wings

Instead of one call `add_wing(w, side="both", …)`, two calls are made: the left half under the name `w`, the right half under the name `w'`.
-/

namespace Verif

/-- The calls to make in place of `op` when the two-sided wing object `N`, named `w`, has been added as two wings, objects `N` (the left
half, named `w`) and `N + 1` (the right half, named `w'`): a wing on the right side that is connected to the wing is connected to its
right half, the airfoils and the control surface of the wing are given to both halves; later objects have the next number. -/
def PlaneOp.halve (N : ℕ) (w w' : String) : PlaneOp → List PlaneOp
  | .addWing nm parent location side d =>
    [.addWing nm (if parent = some w ∧ side = "right" then some w' else parent) location side d]
  | .airfoil id nm e q =>
    if id = N then [.airfoil N nm e q, .airfoil (N + 1) nm e q] else [.airfoil (if id < N then id else id + 1) nm e q]
  | .controlSurface id q =>
    if id = N then [.controlSurface N q, .controlSurface (N + 1) q] else [.controlSurface (if id < N then id else id + 1) q]
  | op => [op]

/-- The later calls leave the names of the two halves alone, and connect no two-sided wing to the wing (such a wing is to be added as two
halves first). -/
structure HalfCalls (w w' : String) (after : List PlaneOp) : Prop where
  names : ∀ nm parent location side d, .addWing nm parent location side d ∈ after → nm ≠ w ∧ nm ≠ w' ∧ parent ≠ some w'
  oneSided : ∀ nm location d, .addWing nm (some w) location "both" d ∉ after

end Verif
