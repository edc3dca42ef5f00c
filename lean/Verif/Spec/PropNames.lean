import Verif.Model.Session

/-!
# Vocabulary for the names of propellers (C148)
-/

namespace Verif

/-- the same call with every name of a propeller replaced -/
def PlaneOp.renameProps (ρ : String → String) : PlaneOp → PlaneOp
  | .addProp name d => .addProp (ρ name) d
  | .propAirfoil name af props => .propAirfoil (ρ name) af props
  | op => op

/-- the same `prop_state` with its keys replaced -/
def PropDict.renameProps (ρ : String → String) (s : PropDict) : PropDict := s.map fun kv => (ρ kv.1, kv.2)

/-- the keys that have a meaning of their own in a `prop_state` -/
def stateWords : List String := ["J", "rot_per_sec", "brake_power", "electric_throttle"]

/-- what a `MachUp` object keeps about a propeller, with another name -/
def PropSlot.renamed {ι : Type} (ρ : String → String) (sl : PropSlot ι) : PropSlot ι :=
  { sl with name := ρ sl.name, model := { sl.model with geom := { sl.model.geom with name := ρ sl.model.geom.name } } }

/-- the solver objects of an aircraft, with other names of the propellers -/
def renamedState {ι : Type} (ρ : String → String) (st : LLState ι × List (PropSlot ι)) : LLState ι × List (PropSlot ι) :=
  (st.1, st.2.map (·.renamed ρ))

end Verif
