import Verif.Model.MUCalls
import Verif.Model.Geometry

/-! What C118 (and C119) say. -/

namespace Verif
open V3

/-- the propeller a call is about -/
def PlaneOp.prop? : PlaneOp → Option String
  | .addProp name _ => some name
  | .propAirfoil name _ _ => some name
  | _ => none

/-- Two programs that build an aircraft differ only in how the calls for the different propellers, and the other calls,
are interleaved: the calls about each propeller come in the same order in both, and so do the calls about no propeller. -/
def SameCalls (ops ops' : List PlaneOp) : Prop :=
  ∀ k : Option String, ops.filter (fun op => op.prop? = k) = ops'.filter fun op => op.prop? = k

/-- the analyses that make a fixed sequence of solves: `solve`, the derivatives and `find_aero_center` -/
def Analysis.Direct : Analysis → Prop
  | .solve _ | .stability | .damping | .control | .derivatives _ | .aeroCenter _ => True
  | _ => False

/-- the calls made one after the other on the object `w` all succeed, with these answers -/
inductive Answers {ι : Type} {B : Backend ι} (cg : V3) : World B → List (AnyCall B) → List Answer → Prop
  | nil (w : World B) : Answers cg w [] []
  | cons {w w' : World B} {c : AnyCall B} {a : Answer} {cs : List (AnyCall B)} {as : List Answer} :
      c.run cg w = (.ok a, w') → Answers cg w' cs as → Answers cg w (c :: cs) (a :: as)

end Verif
