import Verif.Model.LLState
import Verif.Spec.BiotSavart

/-!
# Specification: the lifting-line equation

Written with Biot-Savart integrals, independently of the matrices of the code.
-/

namespace Verif
open V3

variable {ι : Type*} [Fintype ι] [DecidableEq ι]

/-- Velocity at `x` of a horseshoe vortex of unit strength that comes from downstream (direction `u`) to `a`, runs along
the bound segment to `b` and returns downstream.  `own`: `x` is the section's own control point, where the bound segment
induces nothing. -/
noncomputable def horseshoeVelocity (own : Bool) (a b u x : V3) : V3 :=
  rayVelocity b u x + (if own then 0 else filamentVelocity a b x) - rayVelocity a u x

/-- Section lift coefficient at incidence `α` and effective flap deflection `ε`, between the left and the right airfoil
of the segment. -/
def sectionLift (s : Section) (α ε : ℝ) : ℝ :=
  (1 - s.sp) * (s.left.cla * (α + ε - s.left.al0)) + s.sp * (s.right.cla * (α + ε - s.right.al0))

/-- left-hand side of the linearised lifting-line equation of section `i` -/
noncomputable def liftingLineLhs (S : ι → Section) (v : ι → V3) (u : V3) (γ : ι → ℝ) (i : ι) : ℝ :=
  2 * nrm (cross (v i) ((S i).r2 - (S i).r1)) * γ i -
    nrm (v i) * (S i).cla * (S i).area *
      ∑ j, γ j * dot (horseshoeVelocity (decide (i = j)) (S j).r1 (S j).r2 u (S i).rcp) (S i).un

/-- right-hand side: `V² · dS · CL` with the lift coefficient of the undisturbed flow -/
noncomputable def liftingLineRhs (S : ι → Section) (v : ι → V3) (C : Ctrl ι) (i : ι) : ℝ :=
  nrm (v i) ^ 2 * (S i).area *
    sectionLift (S i) (Real.arctan (dot (v i) (S i).un / dot (v i) (S i).ua)) ((S i).flapEff * C.eff i * C.delta i)

/-- `γ` solves the lifting-line equation at every section. -/
def LiftingLine (S : ι → Section) (v : ι → V3) (u : V3) (C : Ctrl ι) (γ : ι → ℝ) : Prop :=
  ∀ i, liftingLineLhs S v u γ i = liftingLineRhs S v C i

end Verif
