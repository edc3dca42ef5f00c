import Verif.Model.PropSolve

/-!
# Specifications for propellers

These definitions do not use the formulas of the propeller model: only its input data and the outputs a user sees.
-/

namespace Verif
open V3

/-- `theta` is the chord-line pitch angle the pitch description asks for at radius `r` (fraction `zeta` of the tip radius):
a pitch length `p` per revolution means `tan theta = p/(2 pi r)`; the pitch length is half a diameter by default, `value`
diameters for type `ratio`, `value` for type `value`; a file gives the angle in degrees. -/
def ChordPitch (table : String → ℝ → ℝ) (q : PropGeom) (zeta r theta : ℝ) : Prop :=
  (q.pitch.type = some "default" ∧ theta = Real.arctan (0.5 * q.diameter / (2 * Real.pi * r))) ∨
  (∃ k, q.pitch.type = some "ratio" ∧ q.pitch.value = some k ∧
    theta = Real.arctan (k * q.diameter / (2 * Real.pi * r))) ∨
  (∃ p, q.pitch.type = some "value" ∧ q.pitch.value = some p ∧ theta = Real.arctan (p / (2 * Real.pi * r))) ∨
  (∃ f, q.pitch.type = some "from_file" ∧ q.pitch.filename = some f ∧ theta = rad (table f zeta))

/-- the sum of the entries of a list of vectors -/
def vsum (l : List V3) : V3 := l.foldr (· + ·) 0

/-- The rotation rate `n`, computed with the coefficients `c`, solves `R = 0` as well as the stopping rule asks: `c` are the
coefficients of a rate `b`, with `b = n` and `|R b| < 1e-14`, or `|n - b| < 1e-14` and the secant through `b` and an earlier rate
`a` puts the root within `1e-14` of `b`. -/
def SolvesRate {ι : Type} (M : PropM ι) (simps : List ℝ → List ℝ → ℝ) (fuel : ℕ) (V : ℝ) (R : ℝ → Coefs → ℝ) (n : ℝ) (c : Coefs) : Prop :=
  ∃ b, AtRate b c ∧ ((b = n ∧ |R b c| < 1e-14) ∨
    |n - b| < 1e-14 ∧ ∃ a ca, AtRate a ca ∧ |R b c| * |b - a| < 1e-14 * |R b c - R a ca|)
where
  /-- `c` are coefficients of the propeller at the advance ratio of airspeed `V` and rotation rate `x` -/
  AtRate (x : ℝ) (c : Coefs) : Prop := x * M.d ≠ 0 ∧ ∃ s s', findCoefs M simps fuel (V / (x * M.d)) s = (.ok c, s')

end Verif
