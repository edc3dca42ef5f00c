import Verif.Model.LLState

/-!
# Specification vocabulary: flight conditions and closeness
-/

namespace Verif
open V3

/-- a flight condition: airspeed, density, angles in degrees, rotation rates -/
@[ext] structure FlightCond where
  V : ℝ
  rho : ℝ
  alpha : ℝ
  beta : ℝ
  roll : ℝ
  pitch : ℝ
  yaw : ℝ

/-- the `aero_state` dictionary with that condition -/
def FlightCond.dict (c : FlightCond) (ι : Type*) : AeroDict ι :=
  { Vmag := some c.V, rho := some c.rho, alpha := some c.alpha, beta := some c.beta, roll := some c.roll, pitch := some c.pitch
    yaw := some c.yaw }

/-- every entry of the two conditions differs by less than `δ` -/
structure FlightCond.Near (δ : ℝ) (c c' : FlightCond) : Prop where
  V : |c'.V - c.V| < δ
  rho : |c'.rho - c.rho| < δ
  alpha : |c'.alpha - c.alpha| < δ
  beta : |c'.beta - c.beta| < δ
  roll : |c'.roll - c.roll| < δ
  pitch : |c'.pitch - c.pitch| < δ
  yaw : |c'.yaw - c.yaw| < δ

/-- the four controls, in degrees -/
@[ext] structure Controls where
  aileron : ℝ
  elevator : ℝ
  rudder : ℝ
  flap : ℝ

/-- the `control_state` dictionary with those controls -/
def Controls.dict (c : Controls) : CtrlDict :=
  { aileron := some c.aileron, elevator := some c.elevator, rudder := some c.rudder, flap := some c.flap }

/-- every control differs by less than `δ` -/
structure Controls.Near (δ : ℝ) (c c' : Controls) : Prop where
  aileron : |c'.aileron - c.aileron| < δ
  elevator : |c'.elevator - c.elevator| < δ
  rudder : |c'.rudder - c.rudder| < δ
  flap : |c'.flap - c.flap| < δ

/-- deflection of the control surface at a section, in degrees -/
def Controls.deflection (c : Controls) (s : Section) : ℝ :=
  c.aileron * s.mixA + c.elevator * s.mixE + c.rudder * s.mixR + c.flap * s.mixF

/-- every entry of the two result groups differs by less than `ε` -/
structure Loads.Near (ε : ℝ) (L L' : Loads) : Prop where
  FL : |L'.FL - L.FL| < ε
  FD : |L'.FD - L.FD| < ε
  FS : |L'.FS - L.FS| < ε
  FX : |L'.FX - L.FX| < ε
  FY : |L'.FY - L.FY| < ε
  FZ : |L'.FZ - L.FZ| < ε
  MX : |L'.MX - L.MX| < ε
  MY : |L'.MY - L.MY| < ε
  MZ : |L'.MZ - L.MZ| < ε

/-- every component of the two vectors differs by less than `ε` -/
structure V3.Near (ε : ℝ) (a b : V3) : Prop where
  x : |b.x - a.x| < ε
  y : |b.y - a.y| < ε
  z : |b.z - a.z| < ε

/-- all loads and all distributions of the two results differ by less than `ε` -/
structure Sol.Near {ι : Type*} (ε : ℝ) (R R' : Sol ι) : Prop where
  inviscid : R.inviscid.Near ε R'.inviscid
  viscous : R.viscous.Near ε R'.viscous
  total : R.total.Near ε R'.total
  gamma : ∀ i, |R'.gamma i - R.gamma i| < ε
  vi : ∀ i, (R.vi i).Near ε (R'.vi i)
  alpha : ∀ i, |R'.alpha i - R.alpha i| < ε
  cl : ∀ i, |R'.cl i - R.cl i| < ε
  cd : ∀ i, |R'.cd i - R.cd i| < ε
  cm : ∀ i, |R'.cm i - R.cm i| < ε
  force : ∀ i, (R.force i).Near ε (R'.force i)
  fpar : ∀ i, (R.fpar i).Near ε (R'.fpar i)
  moment : ∀ i, (R.moment i).Near ε (R'.moment i)

/-- At no section does the air, disturbed by the vortices, arrive from straight behind along the section's axis. -/
def NotFromBehind {ι : Type*} (S : ι → Section) (R : Sol ι) : Prop :=
  ∀ i, 0 < dot (R.vi i) (S i).ua ∨ dot (R.vi i) (S i).un ≠ 0

end Verif
