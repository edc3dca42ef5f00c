import Verif.Model.MachUp
import Verif.Spec.MU

/-!
# Specification: the angle-of-attack sweep of `stall_onset`
-/

namespace Verif

variable {ι : Type} {B : Backend ι}

/-- the world in which the caller's `aero_state` has the angle of attack `a` -/
def World.atAlpha (w : World B) (a : ℝ) : World B := { w with aero := w.aero.map fun d => { d with alpha := some a } }

/-- the world after solving at the angles `n/10, (n+1)/10, …, (n+j)/10` degrees in turn -/
noncomputable def sweep (ps : Option B.π) (w : World B) (n : ℕ) : ℕ → World B
  | 0 => (muSolve ps (w.atAlpha (n / 10))).2
  | j + 1 => sweep ps (muSolve ps (w.atAlpha (n / 10))).2 (n + 1) j

/-- the world in which the sweep, begun at angle `n/10`, solves at the angle `(n+j)/10` -/
noncomputable def sweepAt (ps : Option B.π) (w : World B) (n : ℕ) : ℕ → World B
  | 0 => w.atAlpha (n / 10)
  | j + 1 => sweepAt ps (muSolve ps (w.atAlpha (n / 10))).2 (n + 1) j

/-- the solution of the wing at angle of attack `a`, all other entries being those of `d` and `c` -/
noncomputable def wingAt {n : ℕ} (G : LLGeom (Fin n)) (st : LLState (Fin n)) (d : AeroDict (Fin n)) (c : Option CtrlDict)
    (a : ℝ) : Except PyErr (Sol (Fin n)) := (llSolve G st "linear" (some { d with alpha := some a }) c).1

/-- some section is above its maximum lift coefficient -/
def SomeSectionStalled {n : ℕ} (G : LLGeom (Fin n)) (R : Sol (Fin n)) : Prop := ∃ i, (G.S i).clMax < R.cl i

/-- a flight condition without rotation rates and without local velocities -/
structure Steady {ι : Type*} (d : AeroDict ι) : Prop where
  roll : d.roll = none
  pitch : d.pitch = none
  yaw : d.yaw = none
  field : d.localState = none

/-- how far the guess `x` is from the stall speed `s`: 0 at `s`, between -1 and 1 for positive guesses -/
noncomputable def offset (s x : ℝ) : ℝ := (x - s) / (x + s)

/-- how far the two starting guesses of `stall_airspeed` are from the stall speed `s`: 0 at `s`, below 1 always -/
noncomputable def startOffset (s x0 : ℝ) : ℝ := max |offset s x0| |offset s (x0 * 1.5 + 0.1)|

/-- factor between the requested accuracy and the accuracy of the result -/
noncomputable def errorFactor (ρ : ℝ) : ℝ := ρ * (1 + ρ) / (1 - ρ)

end Verif
