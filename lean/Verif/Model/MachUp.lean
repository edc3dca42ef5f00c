import Verif.Model.MU

/-!
# `MachUp` objects with the modelled solvers plugged in
-/

namespace Verif
open V3

/-- A `MachUp` object for a plane without propellers (`MU.py:69-97`): `G` are the arrays of its grid, `Sw` the reference
area and `lat`, `long` the reference lengths.

A solve that produces `nan`/`inf` leaves no usable results (`LLState.results = none`); `_find_stall_location` then finds
no section above its maximum (comparisons with `nan` are false).
An angle of attack that is `nan`/`inf` makes all velocities and all results `nan`. -/
noncomputable def wingsBackend {n : ℕ} (G : LLGeom (Fin n)) (Sw lat long : ℝ) : Backend (Fin n) where
  σ := LLState (Fin n)
  π := Unit
  hasWings := true
  hasProps := false
  Sw := Sw
  lat := lat
  long := long
  propSolve := fun _ _ => Act.raise .attribute
  noField := fun h => by cases h
  wingSolve := fun d c st => llSolve G st "linear" (some d) c
  stallLoc := fun st => st.results.bind fun R => findStall G.S R.cl
  solveBad := fun st => (.ok none, { st with v := none, u := none, results := none })

/-- the state of a freshly constructed `MachUp` object together with the caller's arguments (`MU.py:62-99`, `101`) -/
noncomputable def freshWorld {n : ℕ} (G : LLGeom (Fin n)) (Sw lat long : ℝ) (aero : Option (AeroDict (Fin n)))
    (ctrl : Option CtrlDict) : World (wingsBackend G Sw lat long) where
  st := LLState.init (Fin n)
  aero := aero
  ctrl := ctrl

end Verif
