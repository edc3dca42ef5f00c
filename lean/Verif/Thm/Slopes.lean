import Verif.Lemmas.Slopes
import Verif.Thm.Continuity
import Verif.Thm.StraightWing
import Verif.Examples.FlatDerivs
import Verif.Examples.LL

/-!
# Reported derivatives are true slopes near the given state (C132)
-/

namespace Verif
open V3 Topology Act

variable {n : ℕ} {G : LLGeom (Fin n)} {Sw lat long : ℝ}

private theorem idOk (x : ℝ) : DifferentiableAt ℝ (fun y : ℝ => y) x := differentiableAt_id

/-- **C132** (angles). A wings-only aircraft, a flight condition with airspeed and density, a non-empty control state. If the wings can be
solved for every angle of attack within half a degree of the given one (and the air arrives neither from straight behind nor along a bound
vortex), then each `_a` derivative `stability_derivatives` reports is the true slope of that coefficient, per radian, at some angle of attack
strictly within half a degree of the given one; likewise for `_b` and the sideslip. -/
theorem C132_stability {ps : Option Unit} {w w' : World (wingsBackend G Sw lat long)} {d : AeroDict (Fin n)} {k : CtrlDict} {D : StabDeriv}
    {D' : Deriv} {V r : ℝ} (hd : w.aero = some d) (hV : d.Vmag = some V) (hr : d.rho = some r) (hl : d.localState = none)
    (hc : w.ctrl = some k) (hk : k.truthy = true) (h : stabilityDerivatives ps w = (.ok D, w')) (f : ℝ → Loads) :
    (WingLoadCurve G k (fun x => { d with alpha := some x }) f →
      (∀ x, |x - d.alpha.getD 0| ≤ 0.5 → RegularFlow G k { d with alpha := some x }) → D.a = some D' →
        D'.IsSlopeWithin (fun θ => f (θ / degree)) ((d.alpha.getD 0 - 0.5) * degree) ((d.alpha.getD 0 + 0.5) * degree) d.q Sw lat long) ∧
    (WingLoadCurve G k (fun x => { d with alpha := some (d.alpha.getD 0), beta := some x }) f →
      (∀ x, |x - d.beta.getD 0| ≤ 0.5 → RegularFlow G k { d with alpha := some (d.alpha.getD 0), beta := some x }) → D.b = some D' →
        D'.IsSlopeWithin (fun θ => f (θ / degree)) ((d.beta.getD 0 - 0.5) * degree) ((d.beta.getD 0 + 0.5) * degree) d.q Sw lat long) := by
  have ht : d.truthy = true := by simp [AeroDict.truthy, hV]
  obtain ⟨-, -, -, aF, aB, bF, bB, h1, h2, h3, h4, h5, h6⟩ := C42_stability_derivatives hd ht h
  rw [hc] at h1 h2 h3 h4
  have hh : (0 : ℝ) < 0.5 := by norm_num
  constructor
  · intro hf hreg hD
    have hs : ∀ x, ({ d with alpha := some x } : AeroDict (Fin n)).truthy = true := fun x => by simp [AeroDict.truthy]
    refine h5.slope hD (solvedAt_curve (d := fun x => { d with alpha := some x }) (hs _) hf h1) (solvedAt_curve (d := fun x => { d with alpha := some x }) (hs _) hf h2) rfl hh degree_pos fun y hy =>
      curve_diff (d := fun x => { d with alpha := some x }) hk ?_ hf (hreg y hy)
    exact ⟨fun x => ⟨hl, ⟨V, hV⟩, r, hr⟩, (Calc.differentiable y).const (d.Vmag.getD 0), (Calc.differentiable y).const (d.rho.getD 0), idOk y,
      (Calc.differentiable y).const (d.beta.getD 0), (Calc.differentiable y).const (d.roll.getD 0), (Calc.differentiable y).const (d.pitch.getD 0), (Calc.differentiable y).const (d.yaw.getD 0)⟩
  · intro hf hreg hD
    have hs : ∀ x, ({ d with alpha := some (d.alpha.getD 0), beta := some x } : AeroDict (Fin n)).truthy = true :=
      fun x => by simp [AeroDict.truthy]
    refine h6.slope hD (solvedAt_curve (d := fun x => { d with alpha := some (d.alpha.getD 0), beta := some x }) (hs _) hf h3) (solvedAt_curve (d := fun x => { d with alpha := some (d.alpha.getD 0), beta := some x }) (hs _) hf h4) rfl hh degree_pos fun y hy =>
      curve_diff (d := fun x => { d with alpha := some (d.alpha.getD 0), beta := some x }) hk ?_ hf (hreg y hy)
    exact ⟨fun x => ⟨hl, ⟨V, hV⟩, r, hr⟩, (Calc.differentiable y).const (d.Vmag.getD 0), (Calc.differentiable y).const (d.rho.getD 0), (Calc.differentiable y).const (d.alpha.getD 0),
      idOk y, (Calc.differentiable y).const (d.roll.getD 0), (Calc.differentiable y).const (d.pitch.getD 0), (Calc.differentiable y).const (d.yaw.getD 0)⟩

/-- **C132** (rates). The same for `damping_derivatives`: each reported derivative is the true slope of that coefficient, per unit of the
non-dimensional rate, at some rate strictly within 0.005 (non-dimensional) of the given one. Airspeed and reference lengths positive. -/
theorem C132_damping {ps : Option Unit} {w w' : World (wingsBackend G Sw lat long)} {d : AeroDict (Fin n)} {k : CtrlDict} {D : DampDeriv}
    {D' : Deriv} {V r : ℝ} (hd : w.aero = some d) (hV : d.Vmag = some V) (hr : d.rho = some r) (hl : d.localState = none)
    (hc : w.ctrl = some k) (hk : k.truthy = true) (hV0 : 0 < V) (hlat : 0 < lat) (hlong : 0 < long)
    (h : dampingDerivatives ps w = (.ok D, w')) (f : ℝ → Loads) :
    let d1 := { d with roll := some (d.roll.getD 0) }
    let d2 := { d1 with pitch := some (d.pitch.getD 0) }
    let u := lat / (2 * V)
    let v := long / (2 * V)
    (WingLoadCurve G k (fun x => { d with roll := some x }) f →
      (∀ x, |x - d.roll.getD 0| ≤ 0.005 / u → RegularFlow G k { d with roll := some x }) → D.p = some D' →
        D'.IsSlopeWithin (fun t => f (t / u)) (d.roll.getD 0 * u - 0.005) (d.roll.getD 0 * u + 0.005) d.q Sw lat long) ∧
    (WingLoadCurve G k (fun x => { d1 with pitch := some x }) f →
      (∀ x, |x - d.pitch.getD 0| ≤ 0.005 / v → RegularFlow G k { d1 with pitch := some x }) → D.q = some D' →
        D'.IsSlopeWithin (fun t => f (t / v)) (d.pitch.getD 0 * v - 0.005) (d.pitch.getD 0 * v + 0.005) d.q Sw lat long) ∧
    (WingLoadCurve G k (fun x => { d2 with yaw := some x }) f →
      (∀ x, |x - d.yaw.getD 0| ≤ 0.005 / u → RegularFlow G k { d2 with yaw := some x }) → D.r = some D' →
        D'.IsSlopeWithin (fun t => f (t / u)) (d.yaw.getD 0 * u - 0.005) (d.yaw.getD 0 * u + 0.005) d.q Sw lat long) := by
  have ht : d.truthy = true := by simp [AeroDict.truthy, hV]
  obtain ⟨-, -, -, pF, pB, qF, qB, rF, rB, h1, h2, h3, h4, h5, h6, h7, h8, h9⟩ := C43_damping_partial hd ht h
  intro d1 d2 u v
  have hu : 0 < u := by positivity
  have hv : 0 < v := by positivity
  rw [hc] at h1 h2 h3 h4 h5 h6
  have eu : (0.005 : ℝ) * (2 * d.Vmag.getD 10 / (wingsBackend G Sw lat long).lat) = 0.005 / u := by
    rw [hV]
    show (0.005 : ℝ) * (2 * V / lat) = 0.005 / (lat / (2 * V))
    field_simp
  have ev : (0.005 : ℝ) * (2 * d.Vmag.getD 10 / (wingsBackend G Sw lat long).long) = 0.005 / v := by
    rw [hV]
    show (0.005 : ℝ) * (2 * V / long) = 0.005 / (long / (2 * V))
    field_simp
  rw [eu] at h1 h2 h5 h6
  rw [ev] at h3 h4
  have hh : (0 : ℝ) < 0.005 / u := by positivity
  have hh' : (0 : ℝ) < 0.005 / v := by positivity
  have es : (0.005 : ℝ) = 0.005 / u * u := by field_simp
  have es' : (0.005 : ℝ) = 0.005 / v * v := by field_simp
  have e1 : ∀ x : ℝ, x * u - 0.005 = (x - 0.005 / u) * u := fun x => by field_simp
  have e2 : ∀ x : ℝ, x * u + 0.005 = (x + 0.005 / u) * u := fun x => by field_simp
  have e3 : ∀ x : ℝ, x * v - 0.005 = (x - 0.005 / v) * v := fun x => by field_simp
  have e4 : ∀ x : ℝ, x * v + 0.005 = (x + 0.005 / v) * v := fun x => by field_simp
  have htr : ∀ d' : AeroDict (Fin n), d'.Vmag = some V → d'.truthy = true := fun d' h => by simp [AeroDict.truthy, h]
  refine ⟨fun hf hreg hD => ?_, fun hf hreg hD => ?_, fun hf hreg hD => ?_⟩
  · rw [e1, e2]
    refine h7.slope hD (solvedAt_curve (d := fun x => { d with roll := some x }) (htr _ hV) hf h1) (solvedAt_curve (d := fun x => { d with roll := some x }) (htr _ hV) hf h2) es hh hu fun y hy =>
      curve_diff (d := fun x => { d with roll := some x }) hk ?_ hf (hreg y hy)
    exact ⟨fun x => ⟨hl, ⟨V, hV⟩, r, hr⟩, (Calc.differentiable y).const (d.Vmag.getD 0), (Calc.differentiable y).const (d.rho.getD 0), (Calc.differentiable y).const (d.alpha.getD 0),
      (Calc.differentiable y).const (d.beta.getD 0), idOk y, (Calc.differentiable y).const (d.pitch.getD 0), (Calc.differentiable y).const (d.yaw.getD 0)⟩
  · rw [e3, e4]
    refine h8.slope hD (solvedAt_curve (d := fun x => { d1 with pitch := some x }) (htr _ hV) hf h3) (solvedAt_curve (d := fun x => { d1 with pitch := some x }) (htr _ hV) hf h4) es' hh' hv fun y hy =>
      curve_diff (d := fun x => { d1 with pitch := some x }) hk ?_ hf (hreg y hy)
    exact ⟨fun x => ⟨hl, ⟨V, hV⟩, r, hr⟩, (Calc.differentiable y).const (d.Vmag.getD 0), (Calc.differentiable y).const (d.rho.getD 0), (Calc.differentiable y).const (d.alpha.getD 0),
      (Calc.differentiable y).const (d.beta.getD 0), (Calc.differentiable y).const (d.roll.getD 0), idOk y, (Calc.differentiable y).const (d.yaw.getD 0)⟩
  · rw [e1, e2]
    refine h9.slope hD (solvedAt_curve (d := fun x => { d2 with yaw := some x }) (htr _ hV) hf h5) (solvedAt_curve (d := fun x => { d2 with yaw := some x }) (htr _ hV) hf h6) es hh hu fun y hy =>
      curve_diff (d := fun x => { d2 with yaw := some x }) hk ?_ hf (hreg y hy)
    exact ⟨fun x => ⟨hl, ⟨V, hV⟩, r, hr⟩, (Calc.differentiable y).const (d.Vmag.getD 0), (Calc.differentiable y).const (d.rho.getD 0), (Calc.differentiable y).const (d.alpha.getD 0),
      (Calc.differentiable y).const (d.beta.getD 0), (Calc.differentiable y).const (d.roll.getD 0), (Calc.differentiable y).const (d.pitch.getD 0), idOk y⟩

/-- the load curves exist: the loads do not depend on what was solved before -/
theorem wingLoadCurve_exists (G : LLGeom (Fin n)) {k : CtrlDict} (hk : k.truthy = true) (d : ℝ → AeroDict (Fin n))
    (hd : ∀ x, (d x).truthy = true) : ∃ f, WingLoadCurve G k d f := by
  classical
  refine ⟨fun x => if h : ∃ R, (llSolve G (LLState.init (Fin n)) "linear" (some (d x)) (some k)).1 = .ok R then h.choose.total
    else ⟨0, 0, 0, 0, 0, 0, 0, 0, 0⟩, fun x st R hR => ?_⟩
  rw [llSolve_anyState G st (LLState.init (Fin n)) (hd x) hk] at hR
  have h : ∃ R, (llSolve G (LLState.init (Fin n)) "linear" (some (d x)) (some k)).1 = .ok R := ⟨R, hR⟩
  have e := h.choose_spec.symm.trans hR
  simp only [dif_pos h]
  rw [Except.ok.inj e]

/-! ### straight wings -/

theorem isWind_unique {V α β : ℝ} {w w' : V3} (hV : 0 < V) (h : IsWind V α β w) (h' : IsWind V α β w') : w = w' := by
  obtain ⟨h1, k, hk, hw⟩ := h
  obtain ⟨h1', k', hk', hw'⟩ := h'
  set b : V3 := ⟨Real.cos (α * (Real.pi / 180)) * Real.cos (β * (Real.pi / 180)),
    Real.cos (α * (Real.pi / 180)) * Real.sin (β * (Real.pi / 180)), Real.sin (α * (Real.pi / 180)) * Real.cos (β * (Real.pi / 180))⟩
  have k0 : 0 ≤ k := nonneg_of_mul_nonneg_left hk hV
  have k0' : 0 ≤ k' := nonneg_of_mul_nonneg_left hk' hV
  have e : k * nrm b = k' * nrm b := by
    have e1 : nrm w = k * nrm b := by rw [hw, nrm_neg, nrm_smul, abs_of_nonneg k0]
    have e2 : nrm w' = k' * nrm b := by rw [hw', nrm_neg, nrm_smul, abs_of_nonneg k0']
    rw [← e1, ← e2, h1, h1']
  have hb : nrm b ≠ 0 := fun h0 => by
    rw [hw, nrm_neg, nrm_smul, h0, mul_zero, abs_of_pos hV] at h1
    exact hV.ne h1
  rw [hw, hw', mul_right_cancel₀ hb e]

/-- A straight wing with the air from the front satisfies the conditions. -/
theorem straight_regular {nm : String} {pos : Option V3} {ops : List PlaneOp} {co : Bool} {g : Grid}
    (hs : StraightWing (built nm pos ops)) (hg : mkGrid (built nm pos ops) co = .ok g) (cg : V3)
    {d : AeroDict (Fin g.data.length)} {V r α β : ℝ} (hd : Plain d V r α β) (hV : 0 < V) (hf : FromFront (built nm pos ops) α β)
    (k : CtrlDict) : RegularFlow (g.geom cg) k d := by
  obtain ⟨w, u, x, z, hw, h⟩ := straight_flow (built_inv nm pos ops) hs hg cg hd hV hf
  obtain ⟨γ, h1, -⟩ := h.solved hd.truthy hV (LLState.init _) (some k)
  refine ⟨_, _, h1, fun i => ?_, fun w' hw' i => ?_⟩
  · set s : ℝ := ∑ j, γ j * (-(1 / (4 * Real.pi)) *
      (lineInf u.y ((g.data.get i).rcp.y - (g.data.get j).r1.y) - lineInf u.y ((g.data.get i).rcp.y - (g.data.get j).r2.y)))
    have hvi : (solOf cg (g.geom cg).S ⟨fun _ => w, u, fun _ => r⟩ (processCtrl (g.geom cg) (LLState.init _) (some k)).ctrl γ).vi i =
        V • u + s • cross u ey := by
      show w + ∑ j, γ j • vji (g.geom cg).S u i j = _
      rw [h.wind, Finset.sum_smul]
      congr 1
      exact Finset.sum_congr rfl fun j _ => by rw [h.line.vji, smul_smul]
    rw [hvi]
    have f1 := h.line.frame i
    have f2 : dot (cross u ey) ((g.geom cg).S i).ua = -dot u ((g.geom cg).S i).un := by
      obtain ⟨x', z', hX, -⟩ := straight_grid (built_inv nm pos ops) hs hg
      obtain ⟨s', -, hsec⟩ := hX _ (List.get_mem g.data i)
      show dot (cross u ey) (g.data.get i).ua = -dot u (g.data.get i).un
      rw [hsec.ua, hsec.un]
      simp [dot, ey]
    have f0 := h.line.front i
    rw [dot_comm] at f1
    rw [add_dot, add_dot, smul_dot, smul_dot, smul_dot, smul_dot, f1, f2]
    by_cases h0 : V * dot u ((g.geom cg).S i).un + s * dot u ((g.geom cg).S i).ua = 0
    · left
      set p := dot u ((g.geom cg).S i).ua
      set q := dot u ((g.geom cg).S i).un
      have hp : p * (V * p + s * -q) = V * (p ^ 2 + q ^ 2) := by linear_combination (-q) * h0
      have : 0 < p * (V * p + s * -q) := by rw [hp]; positivity
      exact (mul_pos_iff_of_pos_left f0).1 this
    · right; exact h0
  · have hww : w' = w := by
      rw [hd.speed, Option.getD_some, hd.incidence, hd.sideslip] at hw'
      exact isWind_unique hV hw' (isWind_of hw)
    rw [hww, hd.roll, hd.pitch, hd.yaw]
    have e : (w - cross ⟨(none : Option ℝ).getD 0, (none : Option ℝ).getD 0, (none : Option ℝ).getD 0⟩ (((g.geom cg).S i).rcp - (g.geom cg).cg)) = w := by
      ext <;> simp
    rw [e]
    have hn : nrm (cross w (dl ((g.geom cg).S i))) ≠ 0 := by
      rw [h.diag hV]
      have := h.line.cross_ne.1
      have := (h.width i).2
      positivity
    exact fun h0 => hn (nrm_eq_zero.2 h0)

/-- **C131** (straight wings). A straight wing with the air from the front, without rotation: the results change a little when the flight
condition (including the rotation rates) changes a little, without further conditions. -/
theorem C131_straight {nm : String} {pos : Option V3} {ops : List PlaneOp} {co : Bool} {g : Grid}
    (hs : StraightWing (built nm pos ops)) (hg : mkGrid (built nm pos ops) co = .ok g) (cg : V3) (c : FlightCond) (hV : 0 < c.V)
    (h0 : c.roll = 0 ∧ c.pitch = 0 ∧ c.yaw = 0) (hf : FromFront (built nm pos ops) c.alpha c.beta) (k : CtrlDict) (hk : k.truthy = true)
    (st : LLState (Fin g.data.length)) :
    ∃ R, (llSolve (g.geom cg) st "linear" (some (c.dict _)) (some k)).1 = .ok R ∧ ∀ ε > 0, ∃ δ > 0, ∀ c' : FlightCond, c.Near δ c' →
      ∃ R', (llSolve (g.geom cg) st "linear" (some (c'.dict _)) (some k)).1 = .ok R' ∧ R.Near ε R' := by
  set d : AeroDict (Fin g.data.length) := { Vmag := some c.V, rho := some c.rho, alpha := some c.alpha, beta := some c.beta } with hd
  obtain ⟨st', R, hR, hb, -⟩ := straight_regular hs hg cg (d := d) (V := c.V) (r := c.rho) (α := c.alpha) (β := c.beta)
    ⟨rfl, rfl, rfl, rfl, rfl, rfl, rfl, rfl⟩ hV hf k
  have e : (llSolve (g.geom cg) st "linear" (some (c.dict _)) (some k)).1 = .ok R := by
    rw [← hR, llSolve_anyState (g.geom cg) st st' (by simp [AeroDict.truthy, FlightCond.dict]) hk,
      llSolve_plain _ _ (c.dict _) _ rfl rfl rfl, llSolve_plain _ _ d _ rfl rfl rfl]
    have e1 : flowAt (g.geom cg) (c.dict _) (c.dict (Fin g.data.length)).fs = flowAt (g.geom cg) d d.fs := by
      unfold flowAt
      simp only [hd, FlightCond.dict, Option.getD_some, Option.getD_none, h0.1, h0.2.1, h0.2.2, AeroDict.fs]
    rw [e1]
    rfl
  exact ⟨R, e, fun ε hε => C131_conditions (g.geom cg) st c (some k) R e hb ε hε⟩

/-- the hypotheses are met by the tapered, washed-out wing with a flap at 5 degrees of incidence and 10 degrees of sideslip -/
example (nm : String) (pos : Option V3) (co : Bool) : ∃ g, mkGrid (built nm pos straightOps) co = .ok g ∧
    ∃ R, (llSolve (g.geom 0) (LLState.init _) "linear" (some ((⟨10, 1.2, 5, 10, 0, 0, 0⟩ : FlightCond).dict _)) (some { flap := some 20 })).1 = .ok R := by
  obtain ⟨g, hg⟩ := straight_grid_exists nm pos co
  obtain ⟨R, hR, -⟩ := C131_straight (straight_ops nm pos) hg 0 ⟨10, 1.2, 5, 10, 0, 0, 0⟩ (by norm_num) ⟨rfl, rfl, rfl⟩ (straight_front nm pos)
    { flap := some 20 } rfl (LLState.init _)
  exact ⟨g, hg, R, hR⟩

/-- **C132** (straight wings). For a straight wing with the air from the front, `stability_derivatives` always returns, and every number it
returns is the true slope of that coefficient at some angle strictly within half a degree of the given one. -/
theorem C132_straight {nm : String} {pos : Option V3} {ops : List PlaneOp} {co : Bool} {g : Grid}
    (hs : StraightWing (built nm pos ops)) (hg : mkGrid (built nm pos ops) co = .ok g) (cg : V3) {ps : Option Unit}
    {w : World (wingsBackend (g.geom cg) Sw lat long)} {d : AeroDict (Fin g.data.length)} {k : CtrlDict} {V r α β : ℝ}
    (hp : Plain d V r α β) (hV : 0 < V) (hr : 0 < r) (hSw : 0 < Sw) (hlat : 0 < lat) (hlong : 0 < long)
    (hf : ∀ x y, |x - α| ≤ 0.5 → |y - β| ≤ 0.5 → FromFront (built nm pos ops) x y)
    (hd : w.aero = some d) (hc : w.ctrl = some k) (hk : k.truthy = true) :
    ∃ D w' A B fa fb, stabilityDerivatives ps w = (.ok D, w') ∧ D.a = some A ∧ D.b = some B ∧
      WingLoadCurve (g.geom cg) k (fun x => { d with alpha := some x }) fa ∧
      WingLoadCurve (g.geom cg) k (fun x => { d with alpha := some α, beta := some x }) fb ∧
      A.IsSlopeWithin (fun θ => fa (θ / degree)) ((α - 0.5) * degree) ((α + 0.5) * degree) (r * V ^ 2 / 2) Sw lat long ∧
      B.IsSlopeWithin (fun θ => fb (θ / degree)) ((β - 0.5) * degree) ((β + 0.5) * degree) (r * V ^ 2 / 2) Sw lat long := by
  have hpl : ∀ x y : Option ℝ, Plain ({ d with alpha := x, beta := y } : AeroDict (Fin g.data.length)) V r (x.getD 0) (y.getD 0) := fun x y =>
    ⟨hp.speed, hp.density, rfl, rfl, hp.roll, hp.pitch, hp.yaw, hp.everywhere⟩
  have h5 : |α + 0.5 - α| ≤ (0.5 : ℝ) ∧ |α - 0.5 - α| ≤ (0.5 : ℝ) ∧ |β + 0.5 - β| ≤ (0.5 : ℝ) ∧ |β - 0.5 - β| ≤ (0.5 : ℝ) ∧
      |α - α| ≤ (0.5 : ℝ) ∧ |β - β| ≤ (0.5 : ℝ) := by
    refine ⟨?_, ?_, ?_, ?_, ?_, ?_⟩ <;> rw [abs_le] <;> constructor <;> linarith
  obtain ⟨D, w', hD⟩ := stab_returns (B := wingsBackend (g.geom cg) Sw lat long) (ps := ps) (w := w)
    (good := fun d' => ∃ x y, Plain d' V r x y ∧ FromFront (built nm pos ops) x y) rfl rfl
    (fun w1 d1 hd1 ⟨x, y, h1, h2⟩ => by
      obtain ⟨R, hR⟩ := C128_solvable hs hg cg h1 hV h2 w1.st w1.ctrl
      rw [wings_muSolve hd1 h1.truthy]
      rcases hL : llSolve (g.geom cg) w1.st "linear" (some d1) w1.ctrl with ⟨e | R', st'⟩
      · rw [hL] at hR; simp at hR
      · exact ⟨_, _, rfl⟩) hd hp.truthy
    ⟨_, _, hpl _ _, by rw [hp.incidence, hp.sideslip]; exact hf _ _ h5.2.1 h5.2.2.2.2.2⟩
    ⟨_, _, hpl _ _, by rw [hp.incidence, hp.sideslip]; exact hf _ _ h5.1 h5.2.2.2.2.2⟩
    ⟨_, _, hpl _ _, by simp only [Option.getD_some]; rw [hp.incidence, hp.sideslip]; exact hf _ _ h5.2.2.2.2.1 h5.2.2.2.1⟩
    ⟨_, _, hpl _ _, by simp only [Option.getD_some]; rw [hp.incidence, hp.sideslip]; exact hf _ _ h5.2.2.2.2.1 h5.2.2.1⟩
  have hq : d.q = r * V ^ 2 / 2 := by unfold AeroDict.q; rw [hp.speed, hp.density]; rfl
  obtain ⟨-, -, -, aF, aB, bF, bB, -, -, -, -, h6, h7⟩ := C42_stability_derivatives hd hp.truthy hD
  have hne : ¬ (d.q * (wingsBackend (g.geom cg) Sw lat long).Sw = 0 ∨ (wingsBackend (g.geom cg) Sw lat long).lat = 0 ∨
      (wingsBackend (g.geom cg) Sw lat long).long = 0) := by
    rw [hq]
    show ¬ (r * V ^ 2 / 2 * Sw = 0 ∨ lat = 0 ∨ long = 0)
    have : r * V ^ 2 / 2 * Sw ≠ 0 := by positivity
    exact fun h => h.elim this fun h => h.elim hlat.ne' hlong.ne'
  obtain ⟨A, hA⟩ := Option.ne_none_iff_exists'.1 (mt h6.2.1 hne)
  obtain ⟨B, hB⟩ := Option.ne_none_iff_exists'.1 (mt h7.2.1 hne)
  obtain ⟨fa, hfa⟩ := wingLoadCurve_exists (g.geom cg) hk (fun x => { d with alpha := some x }) fun x => by simp [AeroDict.truthy]
  obtain ⟨fb, hfb⟩ := wingLoadCurve_exists (g.geom cg) hk (fun x => { d with alpha := some α, beta := some x }) fun x => by
    simp [AeroDict.truthy]
  have c1 := (C132_stability (D' := A) hd hp.speed hp.density hp.everywhere hc hk hD fa).1 hfa (fun x hx =>
    straight_regular hs hg cg (hpl _ _) hV (hf _ _ (by rwa [hp.incidence] at hx) (by rw [hp.sideslip]; exact h5.2.2.2.2.2)) k) hA
  have c2 := (C132_stability (D' := B) hd hp.speed hp.density hp.everywhere hc hk hD fb).2 (by rw [hp.incidence]; exact hfb) (fun x hx =>
    straight_regular hs hg cg (hpl _ _) hV (hf _ _ (by rw [Option.getD_some, hp.incidence]; exact h5.2.2.2.2.1)
      (by rwa [hp.sideslip] at hx)) k) hB
  rw [hq, hp.incidence] at c1
  rw [hq, hp.sideslip] at c2
  exact ⟨D, w', A, B, fa, fb, hD, hA, hB, hfa, hfb, c1, c2⟩

/-- the hypotheses are met by the tapered, washed-out wing with a flap at 5 degrees of incidence and 10 degrees of sideslip -/
example (nm : String) (pos : Option V3) (co : Bool) : ∃ g, mkGrid (built nm pos straightOps) co = .ok g ∧
    ∃ D w' A, stabilityDerivatives (B := wingsBackend (g.geom 0) 6 8 1) none
        (freshWorld (g.geom 0) 6 8 1 (some { Vmag := some 10, rho := some 1.2, alpha := some 5, beta := some 10 }) (some { flap := some 20 })) =
          (.ok D, w') ∧ D.a = some A := by
  obtain ⟨g, hg⟩ := straight_grid_exists nm pos co
  obtain ⟨D, w', A, B, fa, fb, h1, h2, -⟩ := C132_straight (Sw := 6) (lat := 8) (long := 1) (straight_ops nm pos) hg 0 (ps := none)
    (w := freshWorld (g.geom 0) 6 8 1 (some { Vmag := some 10, rho := some 1.2, alpha := some 5, beta := some 10 }) (some { flap := some 20 }))
    (d := { Vmag := some 10, rho := some 1.2, alpha := some 5, beta := some 10 }) (k := { flap := some 20 }) (V := 10) (r := 1.2) (α := 5)
    (β := 10) ⟨rfl, rfl, rfl, rfl, rfl, rfl, rfl, rfl⟩ (by norm_num) (by norm_num) (by norm_num) (by norm_num) (by norm_num)
    (fun x y hx hy => by
      rw [abs_le] at hx hy
      refine ⟨abs_lt.2 ⟨by linarith, by linarith⟩, fun s hs => ?_⟩
      rw [straight_segments] at hs
      have : s.mount = 2 ∧ s.washout = 3 := by
        rcases List.mem_pair.1 hs with rfl | rfl <;> exact ⟨rfl, rfl⟩
      rw [this.1, this.2]
      exact ⟨abs_lt.2 ⟨by linarith, by linarith⟩, abs_lt.2 ⟨by linarith, by linarith⟩⟩) rfl rfl rfl
  exact ⟨g, hg, D, w', A, h1, h2⟩

/-! ### the hypotheses of `C132_damping` are met by a flat wing -/

/-- flight at 10 per second with rotation rates -/
private noncomputable def spinning (p q r : Option ℝ) : AeroDict (Fin 2) := { Vmag := some 10, rho := some 1, roll := p, pitch := q, yaw := r }

private theorem spinning_regular (p q r : Option ℝ) (hr : |r.getD 0| ≤ 3) (k : CtrlDict) : RegularFlow flatGeom k (spinning p q r) := by
  have hfs : (spinning p q r).fs = ⟨-10, 0, 0⟩ := by
    simp [spinning, AeroDict.fs, fsVec, fsArg, rad]
  have h0 : Real.sqrt (fsArg ((spinning p q r).alpha.getD 0) ((spinning p q r).beta.getD 0)) = 1 := by
    simp [spinning, fsArg, rad]
  have hn : nrm (⟨-10, 0, 0⟩ : V3) = 10 := by rw [nrm_x]; norm_num
  have hv : ∀ i, ((flowAt flatGeom (spinning p q r) ⟨-10, 0, 0⟩).v i).x < 0 := by
    intro i
    have hr' := abs_le.1 hr
    fin_cases i <;> simp [flowAt, spinning, flatGeom, flatSec] <;> linarith
  have hun : nrm (unit (⟨-10, 0, 0⟩ : V3)) = 1 := nrm_unit (by rw [hn]; norm_num)
  have hux : (unit (⟨-10, 0, 0⟩ : V3)).x ≠ 0 := by
    simp only [unit, smul_x, hn]; norm_num
  have hR := llSolve_plain flatGeom (LLState.init (Fin 2)) (spinning p q r) (some k) rfl rfl rfl
  rw [h0, hfs, hn, if_neg (by norm_num), flat_solveLinear (F := flowAt flatGeom (spinning p q r) ⟨-10, 0, 0⟩) _ hun hux fun i => (hv i).ne] at hR
  refine ⟨_, _, hR, fun i => ?_, fun w hw i => ?_⟩
  · left
    have hvi : (solOf flatGeom.cg flatGeom.S (flowAt flatGeom (spinning p q r) ⟨-10, 0, 0⟩) (ctrlAt flatGeom (LLState.init (Fin 2)) (some k)) 0).vi i =
        (flowAt flatGeom (spinning p q r) ⟨-10, 0, 0⟩).v i := by
      show vInd _ _ _ i = _
      simp [vInd]
    have hua : (flatGeom.S i).ua = ⟨-1, 0, 0⟩ := by fin_cases i <;> rfl
    rw [hvi, hua]
    have := hv i
    simp only [dot]
    linarith
  · have hw0 : w = ⟨-10, 0, 0⟩ := by
      refine isWind_unique (V := 10) (α := 0) (β := 0) (by norm_num) hw ?_
      exact isWind_of ex_freestream
    have hdl : (flatGeom.S i).r2 - (flatGeom.S i).r1 = ⟨0, 1, 0⟩ := by
      fin_cases i <;> ext <;> simp [flatGeom, flatSec]
    rw [hw0, hdl]
    intro h
    have h1 := hv i
    have h2 := congrArg V3.z h
    have h3 : ((flowAt flatGeom (spinning p q r) ⟨-10, 0, 0⟩).v i).x = 0 := by
      simpa [flowAt] using h2
    linarith

example (k : CtrlDict) (hk : k.truthy = true) (w : World (wingsBackend flatGeom 2 2 1)) (hw : w.aero = some (spinning (some 0) (some 1) (some 2)))
    (hc : w.ctrl = some k) : ∃ D w' D', ∃ f : ℝ → Loads, dampingDerivatives (B := wingsBackend flatGeom 2 2 1) none w = (.ok D, w') ∧ D.p = some D' ∧
      D'.IsSlopeWithin (fun t => f (t / (2 / (2 * 10)))) (0 * (2 / (2 * 10)) - 0.005) (0 * (2 / (2 * 10)) + 0.005) (1 * 10 ^ 2 / 2) 2 2 1 := by
  have hflat : spinning (some 0) (some 1) (some 2) = flatAero := rfl
  obtain ⟨D, w', hD⟩ := flatAero_damp none (w := w) (by rw [hw, hflat])
  have ht : (spinning (some 0) (some 1) (some 2)).truthy = true := by simp [AeroDict.truthy, spinning]
  obtain ⟨-, -, -, pF, pB, qF, qB, rF, rB, -, -, -, -, -, -, h7, -⟩ := C43_damping_partial hw ht hD
  have hq : (spinning (some 0) (some 1) (some 2)).q = 1 * 10 ^ 2 / 2 := rfl
  have hne : ¬ ((spinning (some 0) (some 1) (some 2)).q * (wingsBackend flatGeom 2 2 1).Sw = 0 ∨ (wingsBackend flatGeom 2 2 1).lat = 0 ∨
      (wingsBackend flatGeom 2 2 1).long = 0) := by
    rw [hq]; show ¬ ((1 * 10 ^ 2 / 2 : ℝ) * 2 = 0 ∨ (2 : ℝ) = 0 ∨ (1 : ℝ) = 0); norm_num
  obtain ⟨D', hD'⟩ := Option.ne_none_iff_exists'.1 (mt h7.2.1 hne)
  obtain ⟨f, hf⟩ := wingLoadCurve_exists flatGeom hk (fun x => { spinning (some 0) (some 1) (some 2) with roll := some x }) fun x => by
    simp [AeroDict.truthy]
  have h := (C132_damping (D' := D') hw rfl rfl rfl hc hk (by norm_num) (by norm_num) (by norm_num) hD f).1 hf
    (fun x _ => spinning_regular (some x) (some 1) (some 2) (by simp; norm_num) k) hD'
  exact ⟨D, w', D', f, hD, hD', h⟩

end Verif
