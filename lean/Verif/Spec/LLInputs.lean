import Verif.Model.LLState
import Verif.Spec.Similarity

/-!
# Specification vocabulary: changed inputs of a solve

The same aircraft / flight condition, faster, denser, mirrored, larger, displaced or with its sections listed in
another order.
-/

namespace Verif
open V3

variable {ι ι' : Type*}

namespace AeroDict

/-- All velocities and rotation rates multiplied by `k`. -/
noncomputable def scaleSpeed (k : ℝ) (d : AeroDict ι) : AeroDict ι :=
  { d with
    Vmag := d.Vmag.map (k * ·)
    roll := d.roll.map (k * ·)
    pitch := d.pitch.map (k * ·)
    yaw := d.yaw.map (k * ·)
    localState := d.localState.map fun ls i => ((ls i).1, k • (ls i).2) }

/-- All densities multiplied by `k`. -/
noncomputable def scaleDensity (k : ℝ) (d : AeroDict ι) : AeroDict ι :=
  { d with
    rho := d.rho.map (k * ·)
    localState := d.localState.map fun ls i => (k * (ls i).1, (ls i).2) }

/-- The same flight condition `k` times as fast in air `m` times as dense. -/
noncomputable def faster (k m : ℝ) (d : AeroDict ι) : AeroDict ι := (d.scaleSpeed k).scaleDensity m

/-- All rotation rates divided by `k`. -/
noncomputable def divRates (k : ℝ) (d : AeroDict ι) : AeroDict ι :=
  { d with roll := d.roll.map (· / k), pitch := d.pitch.map (· / k), yaw := d.yaw.map (· / k) }

/-- The flow seen in a mirror: sideslip, roll and yaw rate change sign. -/
def mirror (d : AeroDict ι) : AeroDict ι :=
  { d with
    beta := d.beta.map (- ·)
    roll := d.roll.map (- ·)
    yaw := d.yaw.map (- ·)
    localState := d.localState.map fun ls i => ((ls i).1, mir (ls i).2) }

/-- Sections listed in another order. -/
def reindex (σ : ι ≃ ι') (d : AeroDict ι) : AeroDict ι' :=
  { Vmag := d.Vmag, rho := d.rho, alpha := d.alpha, beta := d.beta, roll := d.roll, pitch := d.pitch, yaw := d.yaw
    localState := d.localState.map fun ls i' => ls (σ.symm i'), other := d.other }

end AeroDict

/-- Controls seen in a mirror: aileron and rudder change sign. -/
def CtrlDict.mirror (c : CtrlDict) : CtrlDict :=
  { c with aileron := c.aileron.map (- ·), rudder := c.rudder.map (- ·) }

namespace Section

/-- displaced by `t` -/
def translate (t : V3) (s : Section) : Section := { s with rcp := s.rcp + t, r1 := s.r1 + t, r2 := s.r2 + t }

/-- all lengths multiplied by `k` -/
noncomputable def scaleLength (k : ℝ) (s : Section) : Section :=
  { s with
    rcp := k • s.rcp, r1 := k • s.r1, r2 := k • s.r2, chord := k * s.chord
    area := k ^ 2 * s.area, ic2 := k ^ 3 * s.ic2 }

/-- Mirror image in the x-z plane: left and right change places, the spanwise unit vector still points from right to
left, aileron and rudder mixing change sign. -/
def mirror (s : Section) : Section :=
  { s with
    rcp := mir s.rcp, r1 := mir s.r2, r2 := mir s.r1, sp := 1 - s.sp
    left := s.right, right := s.left
    ua := mir s.ua, un := mir s.un, us := -mir s.us
    mixA := -s.mixA, mixR := -s.mixR }

end Section

namespace LLGeom
def translate (t : V3) (G : LLGeom ι) : LLGeom ι := ⟨G.cg + t, fun i => (G.S i).translate t⟩
noncomputable def scaleLength (k : ℝ) (G : LLGeom ι) : LLGeom ι := ⟨k • G.cg, fun i => (G.S i).scaleLength k⟩
def mirror (G : LLGeom ι) : LLGeom ι := ⟨mir G.cg, fun i => (G.S i).mirror⟩
def reindex (σ : ι ≃ ι') (G : LLGeom ι) : LLGeom ι' := ⟨G.cg, fun i' => G.S (σ.symm i')⟩
end LLGeom

end Verif
