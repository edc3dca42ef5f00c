import Verif.Model.MUCalls
import Verif.Model.Session

/-! What C152 says. -/

namespace Verif

/-- the outcomes (answers and exceptions) of calls made one after the other on the object `w` -/
noncomputable def outcomes {ι : Type} {B : Backend ι} (cg : V3) : World B → List (AnyCall B) → List (Except PyErr Answer)
  | _, [] => []
  | w, c :: cs => (c.run cg w).1 :: outcomes cg (c.run cg w).2 cs

/-- The calls made one after the other on the `MachUp` object `o` of the aircraft `p` all come to an end, with the outcomes `os` and the
files `F`: some bound on the passes of the loops of the propeller analysis is large enough for all of them.  (`.recursion` is the outcome of
a call that is still running when the bound is reached.) -/
def EndsWith (o : Analyser) (p : Plane) (simps : List ℝ → List ℝ → ℝ)
    (bad : Act (LLState (Fin (sectionsOf o.wing)) × List (PropSlot (Fin (sectionsOf o.wing)))) (Option Loads))
    (calls : List (Analysis × Option (AeroDict (Fin (sectionsOf o.wing))) × Option CtrlDict × Option PropDict))
    (os : List (Except PyErr Answer)) (F : List (String × Doc (Fin (sectionsOf o.wing)))) : Prop :=
  ∃ bound : ℕ, outcomes p.cg (o.fresh p simps bound bad none none) (calls.map fun c => ⟨c.1, c.2.1, c.2.2.1, c.2.2.2⟩) = os ∧
    (afterCalls p.cg (o.fresh p simps bound bad none none) (calls.map fun c => ⟨c.1, c.2.1, c.2.2.1, c.2.2.2⟩)).files = F ∧
    .error .recursion ∉ os

end Verif
