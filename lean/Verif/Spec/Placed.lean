import Verif.Model.Grid

/-!
# Specification vocabulary: where the ends of a wing are
-/

namespace Verif

/-- The answer of `get_position(t)` of the left or right segment of the wing object `id` of `p`; `none` if there is no such segment. -/
noncomputable def Plane.endOf (p : Plane) (id : ℕ) (side : Side) (t : TipAt) : Option (Except PyErr V3) :=
  p.heap[id]?.bind fun W => (match side with | .left => W.leftSeg | .right => W.rightSeg).map fun s => p.segPosition s t

end Verif
