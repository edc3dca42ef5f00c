import Mathlib.MeasureTheory.Integral.IntervalIntegral.Basic
import Mathlib.Analysis.SpecialFunctions.Trigonometric.Inverse
import Mathlib.Analysis.SpecialFunctions.Trigonometric.Arctan
import Verif.Spec.Grid

/-!
# Specification of control surfaces: where they are, and thin airfoil theory for a hinged flap
-/

namespace Verif

/-- The section is covered by the control surface: strictly between its start and its end, measured from the root. -/
def Covered (s : Seg) (x : GridSec) : Prop :=
  s.cs.spanRoot < rootStation s.side x.sp ∧ rootStation s.side x.sp < s.cs.spanTip

/-- flap chord fraction at distance `t` from the root: linear between the ends of the surface -/
noncomputable def CtrlSurf.chordFraction (cs : CtrlSurf) (t : ℝ) : ℝ :=
  cs.chordRoot + (t - cs.spanRoot) / (cs.spanTip - cs.spanRoot) * (cs.chordTip - cs.chordRoot)

/-- Thin airfoil theory uses the angle `θ` in `[0, π]` for the chordwise position `x = (1 - cos θ) / 2` (0 at the leading edge, 1 at the
trailing edge).  The hinge of a flap that takes up the fraction `cf` of the chord is at `x = 1 - cf`. -/
noncomputable def hingeAngle (cf : ℝ) : ℝ := Real.arccos (1 - 2 * (1 - cf))

open Classical in
/-- slope of the camber line of a flat plate whose flap is deflected down by one radian: -1 behind the hinge -/
noncomputable def flapSlope (cf θ : ℝ) : ℝ := if hingeAngle cf < θ then -1 else 0

/-- zero-lift angle of a camber line with slope `f θ` (thin airfoil theory) -/
noncomputable def zeroLiftAngle (f : ℝ → ℝ) : ℝ := -(1 / Real.pi) * ∫ θ in (0 : ℝ)..Real.pi, f θ * (Real.cos θ - 1)

/-- moment coefficient about the quarter chord of a camber line with slope `f θ` (thin airfoil theory) -/
noncomputable def quarterMoment (f : ℝ → ℝ) : ℝ := (1 / 2) * ∫ θ in (0 : ℝ)..Real.pi, f θ * (Real.cos (2 * θ) - Real.cos θ)

/-- theoretical flap effectiveness: how far a flap deflection shifts the zero-lift angle -/
noncomputable def thinFlapEffectiveness (cf : ℝ) : ℝ := -zeroLiftAngle (flapSlope cf)

/-- change of the quarter-chord moment coefficient with flap deflection -/
noncomputable def thinFlapMoment (cf : ℝ) : ℝ := quarterMoment (flapSlope cf)

/-- empirical hinge efficiency of a flap, as a function of its chord fraction; an unsealed gap costs a fifth of it -/
noncomputable def hingeEfficiency (isSealed : Bool) (cf : ℝ) : ℝ :=
  (if isSealed then 1 else 0.8) * (3.9598 * Real.arctan (89.2574 * (cf + 0.006527) + 4.898015) - 5.18786)

end Verif
