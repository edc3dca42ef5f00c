import Verif.Spec.Prop
import Verif.Spec.Blade
import Verif.Spec.LLConditions

/-!
# Specification: what a propeller does to the air, blade element by blade element
-/

namespace Verif
open V3

/-- The air a propeller is analysed in: density, airspeed and direction of motion of the air.  They are the entries of the
dictionary, or without one the defaults. -/
def PropAir {ι : Type} (aero : Option (AeroDict ι)) (rho V : ℝ) (u : V3) : Prop :=
  (∃ d, aero = some d ∧ d.rho = some rho ∧ d.Vmag = some V ∧ IsWind 1 (d.alpha.getD 0) (d.beta.getD 0) u) ∨
  ((aero = none ∨ aero = some {}) ∧ rho = 0.0023769 ∧ V = 10 ∧ u = ⟨-1, 0, 0⟩)

/-- `f` is the direction the propeller pulls in: forwards, raised by the elevation angle and turned by the azimuth angle. -/
def AxisOf (q : PropGeom) (f : V3) : Prop :=
  f = ⟨Real.cos (q.orientation.1 * (Real.pi / 180)) * Real.cos (q.orientation.2 * (Real.pi / 180)),
       Real.cos (q.orientation.1 * (Real.pi / 180)) * Real.sin (q.orientation.2 * (Real.pi / 180)),
       -Real.sin (q.orientation.1 * (Real.pi / 180))⟩

/-- `1` for a propeller turning counter-clockwise, `-1` for clockwise -/
def SenseOf (q : PropGeom) (s : ℝ) : Prop :=
  (s = 1 ∨ s = -1) ∧
  (q.rotDir = .str "CCW" ∨ q.rotDir = .str "ccw" ∨ q.rotDir = .num 1 → s = 1) ∧
  (q.rotDir = .str "CW" ∨ q.rotDir = .str "cw" ∨ q.rotDir = .num (-1) → s = -1)

/-- A blade element: radius, chord, advance angle, induced angle, and the coefficients of the section. -/
structure Element where
  r : ℝ
  c : ℝ
  einf : ℝ
  ei : ℝ
  CL : ℝ
  CD : ℝ
  /-- slope of the lift curve at the angle of attack -/
  CLa : ℝ

namespace Element
variable (rho n : ℝ) (e : Element)

/-- speed of the air relative to the element of a propeller turning `n` times a second: rotation and advance give
`2 pi n r / cos einf`; the induced velocity is perpendicular to what results -/
noncomputable def speed : ℝ := 2 * Real.pi * n * e.r / Real.cos e.einf * Real.cos e.ei

/-- dynamic pressure times chord -/
noncomputable def load : ℝ := rho / 2 * e.speed n ^ 2 * e.c

/-- angle between the plane of the propeller and the air that meets the element -/
noncomputable def phi : ℝ := e.einf + e.ei

/-- coefficient of the force along the axis: lift forwards, drag backwards -/
noncomputable def axial : ℝ := e.CL * Real.cos e.phi - e.CD * Real.sin e.phi

/-- coefficient of the force against the rotation -/
noncomputable def tangential : ℝ := e.CD * Real.cos e.phi + e.CL * Real.sin e.phi

/-- force across the axis for each radian between axis and wind, averaged over a revolution -/
noncomputable def across : ℝ :=
  1 / 2 * (Real.sin (2 * e.einf) * e.tangential -
    Real.sin e.einf ^ 2 * (e.CL * Real.cos e.phi - (e.CLa + e.CD) * Real.sin e.phi))

/-- the same for the thrust, whose moment about the hub does not average out -/
noncomputable def oneSided : ℝ :=
  1 / 2 * (Real.sin (2 * e.einf) * e.axial +
    Real.sin e.einf ^ 2 * ((e.CLa + e.CD) * Real.cos e.phi + e.CL * Real.sin e.phi))

end Element

/-- integral over the radius by the quadrature rule `simps` -/
def overRadius (simps : List ℝ → List ℝ → ℝ) (N : ℕ) (r y : ℕ → ℝ) : ℝ := simps ((List.range N).map y) ((List.range N).map r)

/-- A quadrature rule: multiplying the ordinates by `a` and the abscissae by `b` multiplies the result by `a b`. -/
def Homogeneous (simps : List ℝ → List ℝ → ℝ) : Prop :=
  ∀ (a b : ℝ) (ys xs : List ℝ), b ≠ 0 → ys.length = xs.length →
    simps (ys.map (a * ·)) (xs.map (b * ·)) = a * b * simps ys xs

/-- The loads of a propeller with blade elements `el` at `n` revolutions per second. -/
structure LoadsOf (simps : List ℝ → List ℝ → ℝ) (q : PropGeom) (cg : V3) (rho : ℝ) (u f : V3) (sense n : ℝ) (el : ℕ → Element)
    (o : PropOut) : Prop where
  /-- thrust -/
  thrust : o.T = overRadius simps q.nodes (fun i => (el i).r) fun i => q.blades * ((el i).load rho n * (el i).axial)
  /-- torque of the air on the propeller, against the rotation -/
  torque : o.l = -sense * overRadius simps q.nodes (fun i => (el i).r)
    fun i => q.blades * ((el i).r * (el i).load rho n * (el i).tangential)
  /-- force and moment about the centre of gravity: `δ` is the angle between axis and flight direction, `e` the direction of the
  component of the wind across the axis -/
  total : ∃ (δ : ℝ) (e : V3), Real.cos δ = -dot u f ∧ 0 ≤ δ ∧ δ ≤ Real.pi ∧ (δ = 0 ∨ IsDirection (u - dot u f • f) e) ∧
    o.F = o.T • f + (δ * overRadius simps q.nodes (fun i => (el i).r)
      fun i => q.blades * ((el i).load rho n * (el i).across)) • e ∧
    o.M = cross (q.position - cg) o.F + o.l • f + (sense * (δ * overRadius simps q.nodes (fun i => (el i).r)
      fun i => q.blades * ((el i).r * (el i).load rho n * (el i).oneSided))) • e

end Verif
