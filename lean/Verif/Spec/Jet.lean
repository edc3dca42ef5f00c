import Mathlib.MeasureTheory.Integral.Bochner.Set
import Mathlib.MeasureTheory.Measure.Lebesgue.Basic
import Mathlib.Analysis.SpecialFunctions.Exp

/-!
# Specification: what a round swirling jet carries through a cross-section

`u r` is the axial velocity in excess of the surrounding stream `Vs`, `w r` the swirl.  All fluxes are per radian and per density.
-/

namespace Verif.Jet
open MeasureTheory Set

/-- excess volume flow -/
noncomputable def flow (u : ℝ → ℝ) : ℝ := ∫ r in Ioi (0 : ℝ), u r * r

/-- excess axial momentum, less the suction the swirl causes -/
noncomputable def thrust (Vs : ℝ) (u w : ℝ → ℝ) : ℝ := ∫ r in Ioi (0 : ℝ), (u r * (u r + Vs) - w r ^ 2 / 2) * r

/-- angular momentum -/
noncomputable def torque (Vs : ℝ) (u w : ℝ → ℝ) : ℝ := ∫ r in Ioi (0 : ℝ), (u r + Vs) * w r * r ^ 2

open Classical in
/-- constant up to the radius `B`, zero outside -/
noncomputable def hat (B U r : ℝ) : ℝ := if r ≤ B then U else 0

/-- bell-shaped, of width `b` -/
noncomputable def bell (b um r : ℝ) : ℝ := um * Real.exp (-(r / b) ^ 2)

open Classical in
/-- from zero on the axis straight up to `wm` at the radius `rm`, and straight down to zero at the radius `c` -/
noncomputable def tent (rm c wm r : ℝ) : ℝ :=
  if r ≤ rm then wm * r / rm else if r ≤ c then wm * (c - r) / (c - rm) else 0

end Verif.Jet
