import Verif.Model.Grid
import Verif.Spec.LLConditions
import Verif.Spec.LLEquation

/-!
# Specification: aircraft with a straight wing
-/

namespace Verif
open V3

/-- All wings of the aircraft lie side by side on one straight line across the fuselage: no sweep, no dihedral, no overlap. Spans
and chords are positive, lift slopes not negative. -/
structure StraightWing (p : Plane) : Prop where
  flat : ∀ s ∈ p.segments, s.sweep = 0 ∧ s.dihedral = 0
  size : ∀ s ∈ p.segments, 0 < s.span ∧ 0 < s.rootChord ∧ 0 < s.tipChord
  lifts : ∀ s ∈ p.segments, 0 ≤ s.root.cla ∧ 0 ≤ s.tip.cla
  line : ∃ x z, ∀ s ∈ p.segments, ∃ y, p.segPosition s .leftTip = .ok ⟨x, y, z⟩
  apart : p.segments.Pairwise fun s t => ∀ a b, p.segPosition s .leftTip = .ok a → p.segPosition t .leftTip = .ok b →
    a.y + s.span ≤ b.y ∨ b.y + t.span ≤ a.y

/-- The wind of incidence `α` and sideslip `β` (degrees) meets every section from its front: less than 90 degrees of sideslip, and
less than 90 degrees between wind and chord at the root and the tip of every wing. -/
def FromFront (p : Plane) (α β : ℝ) : Prop :=
  |β| < 90 ∧ ∀ s ∈ p.segments, |α + s.mount| < 90 ∧ |α + s.mount - s.washout| < 90

/-- Plain flight condition: airspeed `V`, density `r`, incidence `α`, sideslip `β`, no rotation, the same air everywhere. -/
structure Plain {ι : Type*} (d : AeroDict ι) (V r α β : ℝ) : Prop where
  speed : d.Vmag = some V
  density : d.rho = some r
  incidence : d.alpha.getD 0 = α
  sideslip : d.beta.getD 0 = β
  roll : d.roll = none
  pitch : d.pitch = none
  yaw : d.yaw = none
  everywhere : d.localState = none

/-- `cl` is the lift coefficient section `s` would have in two-dimensional flow: at the incidence `α` (degrees) of the aircraft plus
the twist of the section, with its control surface deflected as the controls `c` say. -/
def TwoDimLift (s : Section) (α : ℝ) (c : CtrlDict) (cl : ℝ) : Prop :=
  ∃ e, KeepsEffect (c.deflects s) e ∧
    cl = sectionLift s ((α + s.twist) * (Real.pi / 180)) (s.flapEff * e * (c.deflects s * (Real.pi / 180)))

/-- span of the section: distance between its corners -/
noncomputable def Section.width (s : Section) : ℝ := nrm (s.r2 - s.r1)

/-- `n` is the direction of lift in the wind `w`: perpendicular to the wind and to the y axis, upwards for wind from the front. -/
def LiftDirection (w n : V3) : Prop := nrm n = 1 ∧ ∃ k : ℝ, 0 < k ∧ k • n = cross w ey

end Verif

namespace Verif

/-- The sections of the aircraft are laid out evenly: it is in one piece, or the spacing is linear and all pieces have sections of the same
width. -/
def EvenSections (p : Plane) (cosine : Bool) : Prop :=
  (∃ s, p.segments = [s]) ∨ (cosine = false ∧ ∀ s ∈ p.segments, ∀ t ∈ p.segments, s.span / s.n = t.span / t.n)

end Verif
