import Verif.Model.Grid
import Verif.Spec.StraightWing
import Verif.Spec.BiotSavart

/-!
# Specification: which aircraft fly clear of their own vortices
-/

namespace Verif
open V3

/-- The control point of section `i` is touched by a vortex: it lies on one of those that trail along the wind `u` from the corners of the
sections, or on the bound vortex of another section. -/
def Touched {ι : Type*} (S : ι → Section) (u : V3) (i : ι) : Prop :=
  ∃ j, OnRay (S j).r1 u (S i).rcp ∨ OnRay (S j).r2 u (S i).rcp ∨ (i ≠ j ∧ OnSegment (S j).r1 (S j).r2 (S i).rcp)

/-- Seen from the front no two wings of the aircraft overlap. Sweep and dihedral may be anything below 90 degrees. -/
structure SideBySide (p : Plane) : Prop where
  size : ∀ s ∈ p.segments, 0 < s.span
  dihedral : ∀ s ∈ p.segments, |s.dihedral| < 90
  apart : p.segments.Pairwise fun s t => ∀ a b a' b', p.segPosition s .leftTip = .ok a → p.segPosition s .rightTip = .ok b →
    p.segPosition t .leftTip = .ok a' → p.segPosition t .rightTip = .ok b' → b.y ≤ a'.y ∨ b'.y ≤ a.y

/-- In flight with incidence `α` (degrees) the wind meets every section from its front, with room for any dihedral. -/
def AheadOf (p : Plane) (α : ℝ) : Prop := ∀ s ∈ p.segments, |α| + |s.mount| < 90 ∧ |α| + |s.mount - s.washout| < 90

/-- The velocity at the control point of section `i` in the wind `w`, with circulations `γ`. -/
noncomputable def velocityAt {ι : Type*} [Fintype ι] [DecidableEq ι] (S : ι → Section) (w u : V3) (γ : ι → ℝ) (i : ι) : V3 :=
  w + ∑ j, γ j • horseshoeVelocity (decide (i = j)) (S j).r1 (S j).r2 u (S i).rcp

end Verif
