import Verif.Spec.PlaneImage
import Verif.Model.PropGeom

/-! What C119 says. -/

namespace Verif
open V3

/-- `q'` is the mirror image of the propeller `q`, under another name: on the other side of the aircraft, heading the other way,
turning the other way; otherwise the same. -/
def PropGeom.TwinOf (q q' : PropGeom) : Prop :=
  q'.rot = -q.rot ∧ ∃ (name : String) (r : RotArg), q' = { q.mirror with name := name, rotDir := r }

/-- The propellers come in pairs of mirror images: `twin` gives the name of the other one. -/
structure PairedProps (p : Plane) (twin : String → String) : Prop where
  back : ∀ k, twin (twin k) = k
  pairs : ∀ k q, (k, q) ∈ p.props → ∃ q', (twin k, q') ∈ p.props ∧ q.TwinOf q'

end Verif
