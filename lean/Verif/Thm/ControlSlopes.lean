import Verif.Lemmas.ControlSlopes
import Verif.Thm.Slopes

/-!
# Reported control derivatives are true slopes near the given deflection (C143)
-/

namespace Verif
open V3 Topology Act

variable {n : ℕ} {G : LLGeom (Fin n)} {Sw lat long : ℝ}

/-- **C143.** A wings-only aircraft, a flight condition with airspeed and density, a non-empty control state.  If the wings can be solved for
every setting of a control within a quarter of a degree of the given one (and the air arrives neither from straight behind nor along a bound
vortex), and no surface the control moves is at exactly 11 degrees or passes neutral (other than at the given setting), then each derivative
`control_derivatives` reports for that control is the mean of two true slopes of that coefficient, per radian: one at a setting strictly within
a quarter of a degree below the given one, and one strictly within a quarter of a degree above it. -/
theorem C143_controls {ps : Option Unit} {w w' : World (wingsBackend G Sw lat long)} {d : AeroDict (Fin n)} {k : CtrlDict} {D : ContDeriv}
    {D' : Deriv} {V r : ℝ} (hd : w.aero = some d) (hV : d.Vmag = some V) (hr : d.rho = some r) (hl : d.localState = none)
    (hc : w.ctrl = some k) (hk : k.truthy = true) (h : controlDerivatives ps w = (.ok D, w')) (f : ℝ → Loads) :
    let a := k.aileron.getD 0
    let e := k.elevator.getD 0
    let ru := k.rudder.getD 0
    let fl := k.flap.getD 0
    let ka : ℝ → CtrlDict := fun x => { k with aileron := some x }
    let ke : ℝ → CtrlDict := fun x => { k with aileron := some a, elevator := some x }
    let kr : ℝ → CtrlDict := fun x => { k with aileron := some a, elevator := some e, rudder := some x }
    let kf : ℝ → CtrlDict := fun x => { k with aileron := some a, elevator := some e, rudder := some ru, flap := some x }
    (ControlLoadCurve G d ka f → (∀ x, |x - a| ≤ 0.25 → RegularFlow G (ka x) d) → ClearOfKinks G ka a → D.da = some D' →
      D'.IsMeanSlope (fun θ => f (θ / degree)) ((a - 0.25) * degree) (a * degree) ((a + 0.25) * degree) d.q Sw lat long) ∧
    (ControlLoadCurve G d ke f → (∀ x, |x - e| ≤ 0.25 → RegularFlow G (ke x) d) → ClearOfKinks G ke e → D.de = some D' →
      D'.IsMeanSlope (fun θ => f (θ / degree)) ((e - 0.25) * degree) (e * degree) ((e + 0.25) * degree) d.q Sw lat long) ∧
    (ControlLoadCurve G d kr f → (∀ x, |x - ru| ≤ 0.25 → RegularFlow G (kr x) d) → ClearOfKinks G kr ru → D.dr = some D' →
      D'.IsMeanSlope (fun θ => f (θ / degree)) ((ru - 0.25) * degree) (ru * degree) ((ru + 0.25) * degree) d.q Sw lat long) ∧
    (ControlLoadCurve G d kf f → (∀ x, |x - fl| ≤ 0.25 → RegularFlow G (kf x) d) → ClearOfKinks G kf fl → D.df = some D' →
      D'.IsMeanSlope (fun θ => f (θ / degree)) ((fl - 0.25) * degree) (fl * degree) ((fl + 0.25) * degree) d.q Sw lat long) := by
  intro a e ru fl ka ke kr kf
  have ht : d.truthy = true := by simp [AeroDict.truthy, hV]
  obtain ⟨-, -, -, aF, aB, eF, eB, rF, rB, fF, fB, h1, h2, h3, h4, h5, h6, h7, h8, q1, q2, q3, q4⟩ := C44_control_derivatives hd hc hk h
  have hh : (0 : ℝ) < 0.25 := by norm_num
  refine ⟨fun hf hreg hcl hD => ?_, fun hf hreg hcl hD => ?_, fun hf hreg hcl hD => ?_, fun hf hreg hcl hD => ?_⟩
  · have hlin : ∀ i, Linear1 fun y => (ka y).deflects (G.S i) := fun i =>
      ⟨(G.S i).mixA, (G.S i).mixE * e + (G.S i).mixR * ru + (G.S i).mixF * fl, fun x => by simp only [CtrlDict.deflects, ka, Option.getD_some]; ring⟩
    have hkt : ∀ y, (ka y).truthy = true := fun y => by simp [CtrlDict.truthy, ka]
    exact q1.meanSlope hD (solvedAt_ctrl (k := ka) ht hf h1) (solvedAt_ctrl (k := ka) ht hf h2) rfl hh degree_pos
      (fun y hy hn => ctrl_diff hV hr hl hkt hlin hcl hreg hf hy hn) (fun y hy => ctrl_cont hV hr hl hkt hlin hcl hreg hf hy)
  · have hlin : ∀ i, Linear1 fun y => (ke y).deflects (G.S i) := fun i =>
      ⟨(G.S i).mixE, (G.S i).mixA * a + (G.S i).mixR * ru + (G.S i).mixF * fl, fun x => by simp only [CtrlDict.deflects, ke, Option.getD_some]; ring⟩
    have hkt : ∀ y, (ke y).truthy = true := fun y => by simp [CtrlDict.truthy, ke]
    exact q2.meanSlope hD (solvedAt_ctrl (k := ke) ht hf h3) (solvedAt_ctrl (k := ke) ht hf h4) rfl hh degree_pos
      (fun y hy hn => ctrl_diff hV hr hl hkt hlin hcl hreg hf hy hn) (fun y hy => ctrl_cont hV hr hl hkt hlin hcl hreg hf hy)
  · have hlin : ∀ i, Linear1 fun y => (kr y).deflects (G.S i) := fun i =>
      ⟨(G.S i).mixR, (G.S i).mixA * a + (G.S i).mixE * e + (G.S i).mixF * fl, fun x => by simp only [CtrlDict.deflects, kr, Option.getD_some]; ring⟩
    have hkt : ∀ y, (kr y).truthy = true := fun y => by simp [CtrlDict.truthy, kr]
    exact q3.meanSlope hD (solvedAt_ctrl (k := kr) ht hf h5) (solvedAt_ctrl (k := kr) ht hf h6) rfl hh degree_pos
      (fun y hy hn => ctrl_diff hV hr hl hkt hlin hcl hreg hf hy hn) (fun y hy => ctrl_cont hV hr hl hkt hlin hcl hreg hf hy)
  · have hlin : ∀ i, Linear1 fun y => (kf y).deflects (G.S i) := fun i =>
      ⟨(G.S i).mixF, (G.S i).mixA * a + (G.S i).mixE * e + (G.S i).mixR * ru, fun x => by simp only [CtrlDict.deflects, kf, Option.getD_some]; ring⟩
    have hkt : ∀ y, (kf y).truthy = true := fun y => by simp [CtrlDict.truthy, kf]
    exact q4.meanSlope hD (solvedAt_ctrl (k := kf) ht hf h7) (solvedAt_ctrl (k := kf) ht hf h8) rfl hh degree_pos
      (fun y hy hn => ctrl_diff hV hr hl hkt hlin hcl hreg hf hy hn) (fun y hy => ctrl_cont hV hr hl hkt hlin hcl hreg hf hy)

/-- the load curves exist: the loads do not depend on what was solved before -/
theorem controlLoadCurve_exists (G : LLGeom (Fin n)) {d : AeroDict (Fin n)} (hd : d.truthy = true) {k : ℝ → CtrlDict}
    (hk : ∀ x, (k x).truthy = true) : ∃ f, ControlLoadCurve G d k f := by
  classical
  refine ⟨fun x => if h : ∃ R, (llSolve G (LLState.init (Fin n)) "linear" (some d) (some (k x))).1 = .ok R then h.choose.total
    else ⟨0, 0, 0, 0, 0, 0, 0, 0, 0⟩, fun x st R hR => ?_⟩
  rw [llSolve_anyState G st (LLState.init (Fin n)) hd (hk x)] at hR
  have h : ∃ R, (llSolve G (LLState.init (Fin n)) "linear" (some d) (some (k x))).1 = .ok R := ⟨R, hR⟩
  have e := h.choose_spec.symm.trans hR
  simp only [dif_pos h]
  rw [Except.ok.inj e]

/-- **C143** (straight wings). For a straight wing with the air from the front, `control_derivatives` always returns, and for every control that
is clear of the kinks, every number it returns is the mean of two true slopes, on either side of the given setting. -/
theorem C143_straight {nm : String} {pos : Option V3} {ops : List PlaneOp} {co : Bool} {g : Grid}
    (hs : StraightWing (built nm pos ops)) (hg : mkGrid (built nm pos ops) co = .ok g) (cg : V3) {ps : Option Unit}
    {w : World (wingsBackend (g.geom cg) Sw lat long)} {d : AeroDict (Fin g.data.length)} {k : CtrlDict} {V r α β : ℝ}
    (hp : Plain d V r α β) (hV : 0 < V) (hr : 0 < r) (hSw : 0 < Sw) (hlat : 0 < lat) (hlong : 0 < long) (hf : FromFront (built nm pos ops) α β)
    (hd : w.aero = some d) (hc : w.ctrl = some k) (hk : k.truthy = true) :
    let a := k.aileron.getD 0
    let e := k.elevator.getD 0
    let ru := k.rudder.getD 0
    let fl := k.flap.getD 0
    let ka : ℝ → CtrlDict := fun x => { k with aileron := some x }
    let ke : ℝ → CtrlDict := fun x => { k with aileron := some a, elevator := some x }
    let kr : ℝ → CtrlDict := fun x => { k with aileron := some a, elevator := some e, rudder := some x }
    let kf : ℝ → CtrlDict := fun x => { k with aileron := some a, elevator := some e, rudder := some ru, flap := some x }
    ∃ D w' A E R F fa fe fr ff, controlDerivatives ps w = (.ok D, w') ∧ D.da = some A ∧ D.de = some E ∧ D.dr = some R ∧ D.df = some F ∧
      ControlLoadCurve (g.geom cg) d ka fa ∧ ControlLoadCurve (g.geom cg) d ke fe ∧
      ControlLoadCurve (g.geom cg) d kr fr ∧ ControlLoadCurve (g.geom cg) d kf ff ∧
      (ClearOfKinks (g.geom cg) ka a →
        A.IsMeanSlope (fun θ => fa (θ / degree)) ((a - 0.25) * degree) (a * degree) ((a + 0.25) * degree) (r * V ^ 2 / 2) Sw lat long) ∧
      (ClearOfKinks (g.geom cg) ke e →
        E.IsMeanSlope (fun θ => fe (θ / degree)) ((e - 0.25) * degree) (e * degree) ((e + 0.25) * degree) (r * V ^ 2 / 2) Sw lat long) ∧
      (ClearOfKinks (g.geom cg) kr ru →
        R.IsMeanSlope (fun θ => fr (θ / degree)) ((ru - 0.25) * degree) (ru * degree) ((ru + 0.25) * degree) (r * V ^ 2 / 2) Sw lat long) ∧
      (ClearOfKinks (g.geom cg) kf fl →
        F.IsMeanSlope (fun θ => ff (θ / degree)) ((fl - 0.25) * degree) (fl * degree) ((fl + 0.25) * degree) (r * V ^ 2 / 2) Sw lat long) := by
  intro a e ru fl ka ke kr kf
  obtain ⟨D, w', hD⟩ := cont_returns (B := wingsBackend (g.geom cg) Sw lat long) (ps := ps) (w := w)
    (good := fun d' => d' = d) rfl rfl
    (fun w1 d1 hd1 h1 => by
      subst h1
      obtain ⟨R, hR⟩ := C128_solvable hs hg cg hp hV hf w1.st w1.ctrl
      rw [wings_muSolve hd1 hp.truthy]
      rcases hL : llSolve (g.geom cg) w1.st "linear" (some d1) w1.ctrl with ⟨e | R', st'⟩
      · rw [hL] at hR; simp at hR
      · exact ⟨_, _, rfl⟩) hd hc hk rfl
  have hq : d.q = r * V ^ 2 / 2 := by unfold AeroDict.q; rw [hp.speed, hp.density]; rfl
  obtain ⟨-, -, -, aF, aB, eF, eB, rF, rB, fF, fB, -, -, -, -, -, -, -, -, q1, q2, q3, q4⟩ := C44_control_derivatives hd hc hk hD
  have hne : ¬ (d.q * (wingsBackend (g.geom cg) Sw lat long).Sw = 0 ∨ (wingsBackend (g.geom cg) Sw lat long).lat = 0 ∨
      (wingsBackend (g.geom cg) Sw lat long).long = 0) := by
    rw [hq]
    show ¬ (r * V ^ 2 / 2 * Sw = 0 ∨ lat = 0 ∨ long = 0)
    have : r * V ^ 2 / 2 * Sw ≠ 0 := by positivity
    exact fun h => h.elim this fun h => h.elim hlat.ne' hlong.ne'
  obtain ⟨A, hA⟩ := Option.ne_none_iff_exists'.1 (mt q1.2.1 hne)
  obtain ⟨E, hE⟩ := Option.ne_none_iff_exists'.1 (mt q2.2.1 hne)
  obtain ⟨R, hR⟩ := Option.ne_none_iff_exists'.1 (mt q3.2.1 hne)
  obtain ⟨F, hF⟩ := Option.ne_none_iff_exists'.1 (mt q4.2.1 hne)
  obtain ⟨fa, hfa⟩ := controlLoadCurve_exists (g.geom cg) hp.truthy (k := ka) fun y => by simp [CtrlDict.truthy, ka]
  obtain ⟨fe, hfe⟩ := controlLoadCurve_exists (g.geom cg) hp.truthy (k := ke) fun y => by simp [CtrlDict.truthy, ke]
  obtain ⟨fr, hfr⟩ := controlLoadCurve_exists (g.geom cg) hp.truthy (k := kr) fun y => by simp [CtrlDict.truthy, kr]
  obtain ⟨ff, hff⟩ := controlLoadCurve_exists (g.geom cg) hp.truthy (k := kf) fun y => by simp [CtrlDict.truthy, kf]
  have hreg : ∀ k', RegularFlow (g.geom cg) k' d := fun k' => straight_regular hs hg cg hp hV hf k'
  refine ⟨D, w', A, E, R, F, fa, fe, fr, ff, hD, hA, hE, hR, hF, hfa, hfe, hfr, hff, fun hcl => ?_, fun hcl => ?_, fun hcl => ?_, fun hcl => ?_⟩
  · rw [← hq]
    exact (C143_controls (D' := A) hd hp.speed hp.density hp.everywhere hc hk hD fa).1 hfa (fun _ _ => hreg _) hcl hA
  · rw [← hq]
    exact (C143_controls (D' := E) hd hp.speed hp.density hp.everywhere hc hk hD fe).2.1 hfe (fun _ _ => hreg _) hcl hE
  · rw [← hq]
    exact (C143_controls (D' := R) hd hp.speed hp.density hp.everywhere hc hk hD fr).2.2.1 hfr (fun _ _ => hreg _) hcl hR
  · rw [← hq]
    exact (C143_controls (D' := F) hd hp.speed hp.density hp.everywhere hc hk hD ff).2.2.2 hff (fun _ _ => hreg _) hcl hF

/-- the hypotheses are met by the tapered, washed-out wing with a flap, at 5 degrees of incidence and 10 degrees of sideslip, with the flap up and
with the flap lowered by 5 degrees -/
example (nm : String) (pos : Option V3) (co : Bool) (x : ℝ) (hx : x = 0 ∨ x = 5) : ∃ g, mkGrid (built nm pos straightOps) co = .ok g ∧
    ∃ D w' F, ∃ f : ℝ → Loads, controlDerivatives (B := wingsBackend (g.geom 0) 6 8 1) none
        (freshWorld (g.geom 0) 6 8 1 (some { Vmag := some 10, rho := some 1.2, alpha := some 5, beta := some 10 }) (some { flap := some x })) =
          (.ok D, w') ∧ D.df = some F ∧
      F.IsMeanSlope (fun θ => f (θ / degree)) ((x - 0.25) * degree) (x * degree) ((x + 0.25) * degree) (1.2 * 10 ^ 2 / 2) 6 8 1 := by
  obtain ⟨g, hg⟩ := straight_grid_exists nm pos co
  obtain ⟨D, w', A, E, R, F, fa, fe, fr, ff, h1, -, -, -, h2, -, -, -, -, -, -, -, h3⟩ := C143_straight (Sw := 6) (lat := 8) (long := 1) (straight_ops nm pos) hg 0 (ps := none)
    (w := freshWorld (g.geom 0) 6 8 1 (some { Vmag := some 10, rho := some 1.2, alpha := some 5, beta := some 10 }) (some { flap := some x }))
    (d := { Vmag := some 10, rho := some 1.2, alpha := some 5, beta := some 10 }) (k := { flap := some x }) (V := 10) (r := 1.2) (α := 5)
    (β := 10) ⟨rfl, rfl, rfl, rfl, rfl, rfl, rfl, rfl⟩ (by norm_num) (by norm_num) (by norm_num) (by norm_num) (by norm_num) (straight_front nm pos) rfl rfl rfl
  refine ⟨g, hg, D, w', F, ff, h1, h2, h3 ?_⟩
  have key : ∀ i, ((g.geom 0).S i).mixF = 0 ∨ ((g.geom 0).S i).mixF = 1 := fun i => (straight_mixF hg (List.get_mem g.data i)).2.2.2.1
  have hdef : ∀ i y, (({ aileron := some 0, elevator := some 0, rudder := some 0, flap := some y } : CtrlDict)).deflects ((g.geom 0).S i) = ((g.geom 0).S i).mixF * y := by
    intro i y; simp [CtrlDict.deflects]
  constructor
  · intro i
    rcases key i with h | h
    · left; intro y z; refine (hdef i y).trans ((?_ : _ = _).trans (hdef i z).symm); rw [h]; simp
    · right
      intro y hy h11
      replace hy : |y - x| ≤ 0.25 := hy
      have e := hdef i y
      rw [h, one_mul] at e
      replace h11 : |y| = 11 := (congrArg abs e).symm.trans h11
      rw [abs_le] at hy
      rcases hx with rfl | rfl
      · rcases abs_eq (by norm_num : (0 : ℝ) ≤ 11) |>.1 h11 with rfl | rfl <;> norm_num at hy
      · rcases abs_eq (by norm_num : (0 : ℝ) ≤ 11) |>.1 h11 with rfl | rfl <;> norm_num at hy
  · intro i
    rcases key i with h | h
    · left; intro y z; refine (hdef i y).trans ((?_ : _ = _).trans (hdef i z).symm); rw [h]; simp
    · right
      intro y hy hne h0
      replace hy : |y - x| ≤ 0.25 := hy
      have e := hdef i y
      rw [h, one_mul] at e
      have hy0 : y = 0 := e.symm.trans h0
      subst hy0
      rcases hx with rfl | rfl
      · exact hne rfl
      · rw [abs_le] at hy; norm_num at hy

end Verif
