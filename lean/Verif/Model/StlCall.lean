import Verif.Model.Session
import Verif.Model.Stl

/-!
# Model of `MachUp.create_stl` (`MU.py:192-214`)
-/

namespace Verif
open V3

/-- `PropsSolver.get_prop_models` (`propssolver.py:218-230`) -/
def propModels {ι : Type} (sls : List (PropSlot ι)) : List (PropM ι) := sls.map PropSlot.model

/-- The part of `create_stl` after the analysis (`MU.py:207-213`): the triangles saved, `none` if nothing is saved.  `segs`, `wings`,
`props`: the segments the aircraft has now, whether it has wings and propellers.
Simplification: if the segments of the aircraft no longer have the numbers of sections they had when the object was constructed
(wings added or replaced since), the result is an error here; the code may also draw parts of the wrong wings. -/
noncomputable def drawAircraft {ι : Type} (flt : List Char → Option ℝ) (wings props : Bool) (segs : List Seg) (grid : Option Grid)
    (models : List (PropM ι)) : Except PyErr (Option (List Facet)) :=
  if wings then
    match grid with
    | none => .error .attribute
    | some g =>
      if segs.map Seg.n = g.slices.map (fun ab => ab.2 - ab.1) then
        (createStl flt (some (segs, g)) (if props then models else [])).map some
      else .error .index
  else if props then (createStl flt none models).map some
  else .ok none

/-- `MachUp.create_stl(filename)` (`MU.py:192-214`) on the object `o` whose aircraft is now `p`: what is saved under the given name.
`solve()` without arguments comes first (a result with `nan` or `inf` does not stop it). -/
noncomputable def Analyser.createStl (o : Analyser) (p : Plane) (simps : List ℝ → List ℝ → ℝ) (fuel : ℕ)
    (bad : Act (LLState (Fin (sectionsOf o.wing)) × List (PropSlot (Fin (sectionsOf o.wing)))) (Option Loads))
    (flt : List Char → Option ℝ) : Act (World (o.backend p simps fuel bad)) (Option (List Facet)) := fun w =>
  match Act.tryFinite (muSolve none) { w with aero := none, ctrl := none } with
  | (.error e, w1) => (.error e, { w1 with aero := w.aero, ctrl := w.ctrl })
  | (.ok _, w1) =>
    (drawAircraft flt (!p.wings.isEmpty) (!p.props.isEmpty) p.segments (o.wing.map (·.grid)) (propModels w1.st.2),
      { w1 with aero := w.aero, ctrl := w.ctrl })

end Verif
