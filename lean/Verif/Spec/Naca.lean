import Mathlib.Analysis.SpecialFunctions.Trigonometric.Deriv
import Mathlib.Analysis.SpecialFunctions.Sqrt
import Mathlib.Analysis.SpecialFunctions.Trigonometric.Basic

/-!
# Specification vocabulary: NACA four-digit sections

The textbook definition (Abbott and von Doenhoff): `x` runs from the nose (0) to the trailing edge (1), `y` is up.
-/

namespace Verif

/-- the camber line with maximum camber `m` at `p` -/
noncomputable def camberLine (m p x : ℝ) : ℝ :=
  if m = 0 ∨ p = 0 then 0
  else if x < p then m / p ^ 2 * (2 * p * x - x ^ 2)
  else m / (1 - p) ^ 2 * ((1 - 2 * p) + 2 * p * x - x ^ 2)

/-- half the thickness of a section of thickness `t` -/
noncomputable def halfThickness (t x : ℝ) : ℝ :=
  t / 0.2 * (0.2969 * Real.sqrt x - 0.1260 * x - 0.3516 * x ^ 2 + 0.2843 * x ^ 3 - 0.1015 * x ^ 4)

/-- the point `(X, Y)` is found by going the distance `h` from the point of the curve `f` at `x` along the normal of the curve,
upwards -/
def AlongNormal (f : ℝ → ℝ) (x h X Y : ℝ) : Prop :=
  ∃ s, HasDerivAt f s x ∧ X = x - h * (s / Real.sqrt (1 + s ^ 2)) ∧ Y = f x + h * (1 / Real.sqrt (1 + s ^ 2))

/-- The 50 stations: cosine spacing, from the trailing edge along the lower side to the nose and back along the upper side. -/
noncomputable def outStation (j : ℕ) : ℝ := (1 - Real.cos (Real.pi * (2 * j / 49 - 1))) / 2

/-- the first 25 points are on the lower side, the others on the upper side -/
def outSide (j : ℕ) : ℝ := if j < 25 then -1 else 1

/-- the maximum camber, its position and the thickness meant by four digits, if `flt` reads numbers -/
def FourDigits (flt : List Char → Option ℝ) (l : List Char) (m p t : ℝ) : Prop :=
  ∃ a b c d A B T, l = [a, b, c, d] ∧ flt [a] = some A ∧ flt [b] = some B ∧ flt [c, d] = some T ∧
    m = A / 100 ∧ p = B / 10 ∧ t = T / 100

end Verif
