import Verif.Model.PropSolve

/-!
# Specification: an analysis comes to an end

The `while True` loops of the code run on fuel in the model; a loop that is still running when the fuel is used up has the
outcome `.error .recursion`, which nothing else produces in a propeller analysis.
-/

namespace Verif

/-- the run has come to an end, with a result or an exception -/
def Ended {S α : Type} (r : Except PyErr α × S) : Prop := r.1 ≠ .error .recursion

end Verif
