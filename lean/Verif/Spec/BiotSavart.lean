import Verif.Base.V3
import Mathlib.MeasureTheory.Integral.IntervalIntegral.FundThmCalculus
import Mathlib.MeasureTheory.Integral.IntegralEqImproper

/-!
# Specification: the Biot-Savart law

Velocity induced at a point by vortex filaments of unit strength.
-/

namespace Verif
open V3 MeasureTheory

/-- component-wise integral of a vector function over a set -/
noncomputable def vintegral (s : Set ℝ) (f : ℝ → V3) : V3 :=
  ⟨∫ t in s, (f t).x, ∫ t in s, (f t).y, ∫ t in s, (f t).z⟩

/-- component-wise integrability -/
def VIntegrableOn (s : Set ℝ) (f : ℝ → V3) : Prop :=
  IntegrableOn (fun t => (f t).x) s ∧ IntegrableOn (fun t => (f t).y) s ∧ IntegrableOn (fun t => (f t).z) s

/-- Biot-Savart integrand `dl × (x - l) / |x - l|³` for a filament element at `l` in direction `dl`. -/
noncomputable def biotSavart (x l dl : V3) : V3 := (1 / nrm (x - l) ^ 3) • cross dl (x - l)

/-- Integrand along the straight filament from `p` to `q`, parametrised by `t ∈ [0,1]`. -/
noncomputable def segIntegrand (p q x : V3) (t : ℝ) : V3 := biotSavart x (p + t • (q - p)) (q - p)

/-- Integrand along the half line from `p` in direction `u`, parametrised by `t ∈ (0,∞)`. -/
noncomputable def rayIntegrand (p u x : V3) (t : ℝ) : V3 := biotSavart x (p + t • u) u

/-- Velocity at `x` induced by a straight vortex filament of unit strength from `p` to `q`. -/
noncomputable def filamentVelocity (p q x : V3) : V3 :=
  (1 / (4 * Real.pi)) • vintegral (Set.Ioc 0 1) (segIntegrand p q x)

/-- Velocity at `x` induced by a semi-infinite straight vortex filament of unit strength that starts at `p` and goes
in direction `u`. -/
noncomputable def rayVelocity (p u x : V3) : V3 :=
  (1 / (4 * Real.pi)) • vintegral (Set.Ioi 0) (rayIntegrand p u x)

/-- `x` lies on the closed segment from `p` to `q`. -/
def OnSegment (p q x : V3) : Prop := ∃ t : ℝ, 0 ≤ t ∧ t ≤ 1 ∧ x = p + t • (q - p)

/-- `x` lies on the half line from `p` in direction `u`. -/
def OnRay (p u x : V3) : Prop := ∃ t : ℝ, 0 ≤ t ∧ x = p + t • u

end Verif
