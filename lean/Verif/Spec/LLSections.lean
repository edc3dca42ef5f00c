import Verif.Model.LLState

/-!
# Specification: section coefficients and how sections add up

Written per section, with the weights `1-s` and `s` of the two airfoils of the segment.
-/

namespace Verif
open V3

/-- weighted mean of the values of the left and right airfoil of the segment -/
def Section.mix (s : Section) (f : AfCoef → ℝ) : ℝ := (1 - s.sp) * f s.left + s.sp * f s.right

/-- lift coefficient at incidence `α` (no flap term) -/
def Section.lift (s : Section) (α : ℝ) : ℝ := s.mix fun a => a.cla * (α - a.al0)

/-- drag polar of the section -/
def Section.polar (s : Section) (cl : ℝ) : ℝ := s.mix fun a => a.cd0 + a.cd1 * cl + a.cd2 * cl ^ 2

/-- drag coefficient: the polar plus 0.002 per degree of flap deflection (`δ` in radians), whichever way it deflects -/
noncomputable def Section.drag (s : Section) (α δ : ℝ) : ℝ := s.polar (s.lift α) + 0.002 * (|δ| * (180 / Real.pi))

/-- moment coefficient -/
def Section.pitchingMoment (s : Section) (α δ : ℝ) : ℝ := s.mix (fun a => a.cml0 + a.cma * (α - a.al0)) + s.cmd * δ

/-- `α` is the angle of the velocity `v` in the plane of the section's axial and normal directions. -/
def IsIncidence (s : Section) (v : V3) (α : ℝ) : Prop :=
  -Real.pi < α ∧ α ≤ Real.pi ∧
  ∃ r : ℝ, 0 ≤ r ∧ dot v s.ua = r * Real.cos α ∧ dot v s.un = r * Real.sin α

end Verif
