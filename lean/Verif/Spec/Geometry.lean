import Verif.Model.Geometry
import Mathlib.Logic.Relation

/-!
# Specification vocabulary: build histories, attachment, mirror images of wings
-/

namespace Verif
open V3

/-- The three side specifications `add_wing` accepts. -/
def ValidSide (side : String) : Prop := side = "both" ∨ side = "left" ∨ side = "right"

instance (side : String) : Decidable (ValidSide side) := by unfold ValidSide; infer_instance

/-- The accepted `add_wing` calls of a build history: name, side and number of sections. -/
def addCalls (ops : List PlaneOp) : List (String × String × ℕ) :=
  ops.filterMap fun op => match op with
    | .addWing name _ _ side d => if ValidSide side then some (name, side, d.grid.getD 40) else none
    | _ => none

/-- The wings a build history declares: for every name the side and number of sections of the *last* accepted `add_wing`
call with that name, listed in the order in which the names were first used. -/
def declared (ops : List PlaneOp) : List (String × String × ℕ) :=
  ((addCalls ops).map (·.1)).eraseDups.filterMap fun name => (addCalls ops).reverse.find? (·.1 = name)

/-- The segments (name, side, number of sections) a declared wing consists of: left before right. -/
def declaredSegs (w : String × String × ℕ) : List (String × Side × ℕ) :=
  if w.2.1 = "both" then [("left_" ++ w.1, .left, w.2.2), ("right_" ++ w.1, .right, w.2.2)]
  else if w.2.1 = "left" then [("left_" ++ w.1, .left, w.2.2)]
  else [("right_" ++ w.1, .right, w.2.2)]

/-- Wing object `b` is connected directly to wing object `c`. -/
def ParentOf (p : Plane) (b c : ℕ) : Prop := ∃ w s, p.heap[b]? = some w ∧ s ∈ w.segments ∧ s.parent = .wing c

/-- Wing object `b` is wing object `a`, or is connected to it through a chain of connections. -/
def Attached (p : Plane) (b a : ℕ) : Prop := Relation.ReflTransGen (ParentOf p) b a

/-- The plane a sequence of API calls builds. -/
noncomputable def built (name : String) (position : Option V3) (ops : List PlaneOp) : Plane :=
  runOps (newPlane name position) ops

/-- The recursion of `get_position` comes to an end with the outcome `r`. -/
def Finishes (p : Plane) (s : Seg) (t : TipAt) (r : Except PyErr V3) : Prop :=
  ∃ N, ∀ depth ≥ N, segPos p depth s t = r ∧ r ≠ .error .recursion

/-- No call of the history connects a wing to its own name. -/
def NoSelfConnection (ops : List PlaneOp) : Prop :=
  ∀ op ∈ ops, ∀ name parent location side d, op = .addWing name parent location side d → parent ≠ some name

/-- An outcome with the position displaced. -/
def movePos (δ : V3) : Except PyErr V3 → Except PyErr V3
  | .ok v => .ok (v + δ)
  | .error e => .error e

/-- The mirror image (in the x-z plane) of an outcome. -/
def mirPos : Except PyErr V3 → Except PyErr V3
  | .ok v => .ok (mir v)
  | .error e => .error e

end Verif
