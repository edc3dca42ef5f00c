import Verif.Spec.PropNames
import Verif.Spec.CgFree

/-! What C153 says. -/

namespace Verif

/-- A propeller sees no difference between these operating states: both are empty or neither is, and they have the same entries under
the four keys with a meaning. -/
structure SameWords (s s' : PropDict) : Prop where
  empty : s' = [] ↔ s = []
  words : ∀ k ∈ ["J", "rot_per_sec", "brake_power", "electric_throttle"], dictGet s' k = dictGet s k

/-- no difference between entries under the name of a propeller -/
inductive SameForProp : Option PSVal → Option PSVal → Prop
  | same (o : Option PSVal) : SameForProp o o
  | dict {d d' : List (String × ℝ)} : SameWords (d.map fun kv => (kv.1, .num kv.2)) (d'.map fun kv => (kv.1, .num kv.2)) →
      SameForProp (some (.dict d)) (some (.dict d'))

/-- no difference between `prop_state`s for an aircraft with propellers of these names -/
structure SameForProps (names : List String) (s s' : PropDict) : Prop where
  common : SameWords s s'
  named : ∀ n ∈ names, SameForProp (dictGet s n) (dictGet s' n)

/-- the same request, up to entries of the `prop_state` that mean nothing -/
structure Request.SameForProps {ι : Type} (names : List String) (q q' : Request ι) : Prop where
  what : q'.what = q.what
  aero : q'.aero = q.aero
  ctrl : q'.ctrl = q.ctrl
  ps : Verif.SameForProps names (q.ps.getD []) (q'.ps.getD [])

end Verif
