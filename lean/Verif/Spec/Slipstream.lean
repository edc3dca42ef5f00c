import Mathlib.Analysis.SpecialFunctions.Trigonometric.Basic
import Mathlib.Analysis.SpecialFunctions.Pow.Real

/-!
# Specification: the slipstream of a propeller as a set of stream tubes
-/

namespace Verif

/-- The velocity a blade element induces is perpendicular to the air that meets it, which comes at the angle `einf + ei` to the disc;
its magnitude makes up the angle `ei`.  Its axial part, backwards: -/
noncomputable def inducedAxial (n r einf ei : ℝ) : ℝ :=
  2 * Real.pi * n * r * Real.sin ei / Real.cos einf * Real.cos (einf + ei)

/-- and its part in the plane of the disc, in the direction of rotation. -/
noncomputable def inducedSwirl (n r einf ei : ℝ) : ℝ :=
  2 * Real.pi * n * r * Real.sin ei / Real.cos einf * Real.sin (einf + ei)

/-- Stream tubes that leave the disc of radius `R` at radii `r 0 < r 1 < ...` with induced axial velocity `w` and swirl `v`, at the distance
`s` behind the disc, in air of speed `V`, around a core of radius `core`: radii `r'`, axial velocity `w'`, swirl `v'`. -/
structure Tubes (N : ℕ) (core R V s : ℝ) (r w v r' w' v' : ℕ → ℝ) : Prop where
  /-- the core (for a wing in the slipstream, the nacelle) is a cylinder -/
  nacelle : r' 0 = core
  order : ∀ i, i + 1 < N → 0 < r' i ∧ r' i < r' (i + 1)
  /-- the induced velocity grows from its value at the disc towards twice that value -/
  axial : ∀ i, i < N → w' i = (1 + s / Real.sqrt (s ^ 2 + R ^ 2)) * w i
  /-- the air between two tubes stays between them -/
  flow : ∀ i, i + 1 < N → (r' (i + 1) ^ 2 - r' i ^ 2) * (V + (w' i + w' (i + 1)) / 2) =
    (r (i + 1) ^ 2 - r i ^ 2) * (V + (w i + w (i + 1)) / 2)
  /-- behind the disc the swirl is twice that at the disc, and keeps its angular momentum -/
  swirl : ∀ i, N / 10 ≤ i → i < N → r' i * v' i = 2 * (r i * v i)
  /-- the innermost tenth turns like a solid body -/
  core : ∀ i, i < N / 10 → v' i * r' (N / 10) = v' (N / 10) * r' i

/-- linear interpolation between neighbouring tubes -/
def Between (r' y : ℕ → ℝ) (i : ℕ) (rho val : ℝ) : Prop :=
  ∃ t, 0 ≤ t ∧ t ≤ 1 ∧ rho = (1 - t) * r' i + t * r' (i + 1) ∧ val = (1 - t) * y i + t * y (i + 1)

end Verif
