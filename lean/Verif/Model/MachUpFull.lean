import Verif.Model.MachUp
import Verif.Model.PropSolve

/-!
# `MachUp` objects with wings and propellers

The two solver objects of a `MachUp` object: the lifting-line model and the propeller solver.
-/

namespace Verif
open V3

/-- A `MachUp` object (`MU.py:69-97`).  `wings`, `props`: whether the plane has wings and propellers; `G`: the arrays of the
grid; the propeller solver gets the control points of the wings (`MU.py:75`, `96-97`).
`simps` is SciPy's integration rule, `fuel` bounds the iterations of the propeller analysis.
`bad`: what a `solve` with an angle of attack that is `nan` or `inf` does, is not modelled here. -/
noncomputable def fullBackend {n : ℕ} (G : LLGeom (Fin n)) (wings props : Bool) (simps : List ℝ → List ℝ → ℝ) (fuel : ℕ)
    (Sw lat long : ℝ) (bad : Act (LLState (Fin n) × List (PropSlot (Fin n))) (Option Loads)) : Backend (Fin n) where
  σ := LLState (Fin n) × List (PropSlot (Fin n))
  π := PropDict
  hasWings := wings
  hasProps := props
  Sw := Sw
  lat := lat
  long := long
  propSolve := fun d ps st =>
    match propsSolve simps fuel (if wings then some fun i => (G.S i).rcp else none) (some d) (ps.getD []) st.2 with
    | (r, sls) => (r, (st.1, sls))
  noField := by
    intro h d ps s r f s' hs
    subst h
    simp only [Bool.false_eq_true, if_false, propsSolve] at hs
    rw [show ∀ (m : Act (List (PropSlot (Fin n))) (PropTotals × List PropOut)) g, (m >>= g) = Act.seq m g from fun _ _ => rfl] at hs
    unfold Act.seq at hs
    rcases hq : propsForces simps fuel (some d) (ps.getD []) s.2 with ⟨e | ⟨tot, outs⟩, sls⟩
    · rw [hq] at hs; simp at hs
    · rw [hq] at hs
      change ((.ok (tot, none) : Except PyErr (PropTotals × Option (Fin n → ℝ × V3))), (s.1, sls)) = (.ok (r, f), s') at hs
      cases hs
      rfl
  wingSolve := fun d c st =>
    match llSolve G st.1 "linear" (some d) c with
    | (r, ll) => (r, (ll, st.2))
  stallLoc := fun st => st.1.results.bind fun R => findStall G.S R.cl
  solveBad := bad

end Verif
