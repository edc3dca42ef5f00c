import Verif.Spec.PropOrder
import Verif.Model.PropSolve

/-! # Specification: memory contents that agree wherever one of them is a number -/

namespace Verif

/-- `mem k i` is entry `i` of the array allocated as number `k`.  Wherever `mem` holds a number, `mem'` holds the same number;
where `mem` holds `nan` or `inf` (`none`), `mem'` may hold anything. -/
def AgreesWhereNumber (mem mem' : ℕ → ℕ → Option ℝ) : Prop := ∀ k i x, mem k i = some x → mem' k i = some x

/-- The same propeller in the same state, in another process: only the memory it will be given differs, and it agrees wherever the
first one holds a number. -/
structure SameButMemory {ι : Type} (a b : PropSlot ι) : Prop where
  name : b.name = a.name
  model : b.model = a.model
  ei : b.st.ei = a.st.ei
  rps : b.st.rps = a.st.rps
  tick : b.st.tick = a.st.tick
  out : b.out = a.out
  mem : AgreesWhereNumber a.st.mem b.st.mem

/-- the analyses in which no intermediate result that is `nan` or `inf` is ever passed over: all except the searches for a stall and for a
lift -/
def Analysis.NoSearch (a : Analysis) : Prop := a.Direct ∨ ∃ L M e f, a = .pitchTrim L M e f

end Verif
