import Verif.Spec.Geometry

/-!
# Specification vocabulary: the same calls with other names for the wings
-/

namespace Verif

/-- The call with the names of wings changed, both where a wing is added and where it is referred to. -/
def PlaneOp.renameWings (ρ : String → String) : PlaneOp → PlaneOp
  | .addWing nm parent location side d => .addWing (ρ nm) (parent.map ρ) location side d
  | op => op

end Verif
