import Verif.Spec.MU

/-!
# Specification vocabulary for `target_lift` and `pitch_trim`
-/

namespace Verif

variable {ι : Type} {B : Backend ι}

/-- `count` is a measure of the work done that a call of `solve` raises by at most one and that nothing else raises; for
example the number of calls of `solve` so far. -/
structure SolveCount (ps : Option B.π) (count : World B → ℕ) : Prop where
  solve : ∀ w, count (muSolve ps w).2 ≤ count w + 1
  solveBad : ∀ w, count (onSolver B.solveBad w).2 ≤ count w + 1
  aero : ∀ (w : World B) a, count { w with aero := a } = count w
  ctrl : ∀ (w : World B) c, count { w with ctrl := c } = count w
  files : ∀ (w : World B) f, count { w with files := f } = count w

/-- at the states with the entries of `d` and any angle of attack `x`, `solve` always succeeds and the lift is `f x` -/
def LiftCurve (ps : Option B.π) (d : AeroDict ι) (c : Option CtrlDict) (f : ℝ → ℝ) : Prop :=
  ∀ (x : ℝ) (w : World B) (d' : AeroDict ι), w.aero = some d' → SameEntries B { d with alpha := some x } d' → w.ctrl = c →
    ∃ r w', muSolve ps w = (.ok r, w') ∧ r.FL = f x

/-- at the states with the entries of `d` and `c` and any angle of attack `x` and elevator deflection `e`, `solve` always
succeeds, the lift is `f x e` and the pitching moment `m x e` -/
def TrimCurves (ps : Option B.π) (d : AeroDict ι) (c : CtrlDict) (f m : ℝ → ℝ → ℝ) : Prop :=
  ∀ (x e : ℝ) (w : World B) (d' : AeroDict ι), w.aero = some d' → SameEntries B { d with alpha := some x } d' →
    w.ctrl = some { c with elevator := some e } →
    ∃ r w', muSolve ps w = (.ok r, w') ∧ r.FL = f x e ∧ r.MY = m x e

end Verif
