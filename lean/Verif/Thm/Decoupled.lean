import Verif.Spec.Decoupled
import Verif.Thm.PropPair
import Verif.Thm.MUDerivs
import Verif.Thm.Incomplete
import Verif.Thm.StraightTurn
import Verif.Examples.FlatDerivs

/-!
# Derivatives of symmetric aircraft (C137)
-/

namespace Verif
open V3 Act

theorem neg_zero_entry {o : Option ℝ} (h : o.getD 0 = 0) : o.map (- ·) = o := by
  cases o with
  | none => rfl
  | some x => have : x = 0 := h; subst this; simp

section
variable {nm : String} {pos : Option V3} {ops : List PlaneOp} {table : String → ℝ → ℝ} {mem : String → ℕ → ℕ → Option ℝ}
  {simps : List ℝ → List ℝ → ℝ} {fuel : ℕ} {o : Analyser} {units : Option (Option String)} {p : Plane}

/-- the loads `solve` reports for a symmetric aircraft in the mirrored flow with the mirrored controls -/
theorem solvedAt_mirror (hpos : (pos.getD 0).y = 0) (hs : SymmetricCalls ops) (hp : p = { built nm pos ops with units }) (hw : p.wings ≠ [])
    (hnp : p.props = []) (hcg : p.cg.y = 0) (ho : openMachUp table mem p = .ok o) {bad : _} {ps : Option PropDict}
    {d d' : AeroDict (Fin (sectionsOf o.wing))} {c c' : CtrlDict} {r r' : Loads} (h : SolvedAt (B := o.backend p simps fuel bad) ps d (some c) r)
    (h' : SolvedAt (B := o.backend p simps fuel bad) ps d' (some c') r') (ht : d.truthy = true) (hl : d.localState = none) (hc : c.truthy = true)
    (hdd : d' = d.mirror) (hcc : c' = c.mirror) : r' = r.mirror := by
  subst hdd hcc
  have hP : (o.backend p simps fuel bad).hasProps = false := by show (!p.props.isEmpty) = false; rw [hnp]; rfl
  have hW : (o.backend p simps fuel bad).hasWings = true := by show (!p.wings.isEmpty) = true; simp [hw]
  have hB : ((o.backend p simps fuel bad).hasProps && (o.backend p simps fuel bad).hasWings) = false := by rw [hP]; rfl
  have out : ∀ {d : AeroDict (Fin (sectionsOf o.wing))} {c : CtrlDict} {r : Loads}, d.truthy = true → c.truthy = true →
      SolvedAt (B := o.backend p simps fuel bad) ps d (some c) r →
      o.wing.isSome = true ∧ (llSolve (geomOf p.cg o.wing) (LLState.init _) "linear" (some d) (some c)).1.map (·.total) = .ok r := by
    rintro d c r ht hc ⟨w, w', d', hd, hsame, hcc, hm⟩
    have := hsame.2 hB
    subst this
    have k := muSolve_wingsOnly (B := o.backend p simps fuel bad) (ps := ps) hP hW hd (by unfold aeroGiven; rw [hd]; exact ht)
    rw [hm] at k
    have k2 := backend_wingSolve (o := o) (p := p) (simps := simps) (fuel := fuel) (bad := bad) d' w.ctrl w.st
    by_cases hi : o.wing.isSome = true
    · refine ⟨hi, ?_⟩
      rw [if_pos hi] at k2
      have k3 := congrArg Prod.fst k2
      rw [hcc] at k k3
      rw [llSolve_given (geomOf p.cg o.wing) (LLState.init _) _ d' (some c) ht hc] at k3
      have k4 : ((o.backend p simps fuel bad).wingSolve d' (some c) w.st).1 =
        (llSolve (geomOf p.cg o.wing) (LLState.init _) "linear" (some d') (some c)).1 := k3
      rw [k4] at k
      revert k
      rcases (llSolve (geomOf p.cg o.wing) (LLState.init _) "linear" (some d') (some c)).1 with e | R
      · intro k; cases k
      · intro k
        cases k
        show Except.ok R.total = Except.ok _
        congr 1
        simp [totalOf, Loads.add, Loads.zero]
    · rw [if_neg hi] at k2
      have k3 : ((o.backend p simps fuel bad).wingSolve d' w.ctrl w.st).1 = .error .attribute := congrArg Prod.fst k2
      rw [k3] at k
      cases k
  obtain ⟨σ, hO⟩ := objMir_self hpos hs hp hcg ho o.slots rfl
  obtain ⟨hi, e⟩ := out ht hc h
  obtain ⟨-, e'⟩ := out (by rw [truthy_mirror, ht]) (by simpa [CtrlDict.truthy, CtrlDict.mirror] using hc) h'
  have hl' : d.mirror.reindex σ = d.mirror := by
    simp [AeroDict.mirror, AeroDict.reindex, hl]
  have m := (hO.solves d (some c) (LLState.init _) (LLState.init _) ht hi ⟨fun _ => rfl, fun _ => rfl⟩).1
  rw [hl'] at m
  revert e e' m
  show Except.map _ (llSolve (geomOf p.cg o.wing) (LLState.init _) "linear" (some d) (some c)).1 = _ → 
    Except.map _ (llSolve (geomOf p.cg o.wing) (LLState.init _) "linear" (some d.mirror) (some c.mirror)).1 = _ →
    Outcome _ (llSolve (geomOf p.cg o.wing) (LLState.init _) "linear" (some d) (some c)).1 (llSolve (geomOf p.cg o.wing) (LLState.init _) "linear" (some d.mirror) (some c.mirror)).1 → _
  rcases (llSolve (geomOf p.cg o.wing) (LLState.init _) "linear" (some d) (some c)).1 with e | R <;>
    rcases (llSolve (geomOf p.cg o.wing) (LLState.init _) "linear" (some d.mirror) (some c.mirror)).1 with e' | R'
  · intro h; cases h
  · intro h; cases h
  · intro _ h; cases h
  · intro h h' m
    cases h; cases h'
    exact m.1

/-- equal loads but for the sign of the lateral ones, on both sides: only lateral differences -/
theorem lateral_of {D : Deriv} {a b : Loads} {h q S lat long : ℝ} (hD : D.IsCentralDifference a b h q S lat long) (hm : b = a.mirror) : D.Lateral := by
  obtain ⟨h1, h2, -, h4, -, h6, -, h8, -⟩ := hD
  subst hm
  exact ⟨by simp [h1, Loads.mirror], by simp [h2, Loads.mirror], by simp [h4, Loads.mirror], by simp [h6, Loads.mirror], by simp [h8, Loads.mirror]⟩

/-- no lateral loads on both sides -/
theorem longitudinal_of {D : Deriv} {a b : Loads} {h q S lat long : ℝ} (hD : D.IsCentralDifference a b h q S lat long) (ha : a = a.mirror)
    (hb : b = b.mirror) : D.Longitudinal := by
  obtain ⟨-, -, h3, -, h5, -, h7, -, h9⟩ := hD
  have z : ∀ {x : ℝ}, x = -x → x = 0 := fun h => by linarith
  have zero : ∀ {l : Loads}, l = l.mirror → l.FS = 0 ∧ l.FY = 0 ∧ l.MX = 0 ∧ l.MZ = 0 := fun h =>
    ⟨z (congrArg Loads.FS h), z (congrArg Loads.FY h), z (congrArg Loads.MX h), z (congrArg Loads.MZ h)⟩
  obtain ⟨a1, a2, a3, a4⟩ := zero ha
  obtain ⟨b1, b2, b3, b4⟩ := zero hb
  exact ⟨by simp [h3, a1, b1], by simp [h5, a2, b2], by simp [h7, a3, b3], by simp [h9, a4, b4]⟩

section
variable (hpos : (pos.getD 0).y = 0) (hs : SymmetricCalls ops) (hp : p = { built nm pos ops with units }) (hw : p.wings ≠ [])
    (hnp : p.props = []) (hcg : p.cg.y = 0) (ho : openMachUp table mem p = .ok o) {bad : _} {ps : Option PropDict}
include hpos hs hp hw hnp hcg ho

/-- **C137** (`stability_derivatives`). An aircraft without propellers, built from two-sided, laterally centred wings, with the CG in the plane of
symmetry, in symmetric flow with symmetric controls, whatever has been analysed before: the angle of attack has no effect on side force, rolling
and yawing moment, the sideslip angle has none on lift, drag, axial and normal force and pitching moment. -/
theorem C137_stability {w w' : World (o.backend p simps fuel bad)} {d : AeroDict (Fin (sectionsOf o.wing))} {c : CtrlDict} {D : StabDeriv}
    (hd : w.aero = some d) (ht : d.truthy = true) (hf : SymFlow d) (hc : w.ctrl = some c) (hct : c.truthy = true) (hsc : SymCtrl (some c))
    (h : stabilityDerivatives (B := o.backend p simps fuel bad) ps w = (.ok D, w')) : D.Decoupled := by
  obtain ⟨-, -, -, aF, aB, bF, bB, s1, s2, s3, s4, r1, r2⟩ := C42_stability_derivatives hd ht h
  rw [hc] at s1 s2 s3 s4
  have hcm : c.mirror = c := by
    obtain ⟨h1, h2⟩ := hsc c rfl
    simp only [CtrlDict.mirror, neg_zero_entry h1, neg_zero_entry h2]
  have hr := neg_zero_entry hf.roll
  have hy := neg_zero_entry hf.yaw
  have hb := neg_zero_entry hf.beta
  have same : ∀ a : ℝ, ({ d with alpha := some a } : AeroDict (Fin (sectionsOf o.wing))).mirror = { d with alpha := some a } := fun a => by
    simp only [AeroDict.mirror, hr, hy, hb, hf.localState, Option.map_none]
  have side : ∀ a b : ℝ, ({ d with alpha := some a, beta := some b } : AeroDict (Fin (sectionsOf o.wing))).mirror = { d with alpha := some a, beta := some (-b) } := fun a b => by
    simp only [AeroDict.mirror, hr, hy, hf.localState, Option.map_none, Option.map_some]
  have t : ∀ a b : _, ({ d with alpha := some a, beta := b } : AeroDict (Fin (sectionsOf o.wing))).truthy = true := fun a b => by simp [AeroDict.truthy]
  have M := @solvedAt_mirror nm pos ops table mem simps fuel o units p hpos hs hp hw hnp hcg ho bad ps
  exact ⟨fun A hA => longitudinal_of (r1.1 A hA) (M s1 s1 (t _ _) hf.localState hct (same _).symm hcm.symm)
    (M s2 s2 (t _ _) hf.localState hct (same _).symm hcm.symm),
    fun A hA => lateral_of (r2.1 A hA) (M s3 s4 (t _ _) hf.localState hct (by rw [side, hf.beta]; norm_num) hcm.symm)⟩

/-- **C137** (`control_derivatives`). For the same aircraft, elevator and flap have no effect on side force, rolling and yawing moment, aileron and
rudder have none on lift, drag, axial and normal force and pitching moment. -/
theorem C137_control {w w' : World (o.backend p simps fuel bad)} {d : AeroDict (Fin (sectionsOf o.wing))} {D : ContDeriv}
    (hd : w.aero = some d) (ht : d.truthy = true) (hf : SymFlow d) (hsc : SymCtrl w.ctrl)
    (h : controlDerivatives (B := o.backend p simps fuel bad) ps w = (.ok D, w')) : D.Decoupled := by
  -- without a `control_state`, the method supplies zeros
  have key : ∀ (w w' : World (o.backend p simps fuel bad)) (c : CtrlDict), w.aero = some d → w.ctrl = some c → c.truthy = true → SymCtrl (some c) →
      controlDerivatives (B := o.backend p simps fuel bad) ps w = (.ok D, w') → D.Decoupled := by
    intro w w' c hd hc hct hsc h
    obtain ⟨-, -, -, aF, aB, eF, eB, rF, rB, fF, fB, s1, s2, s3, s4, s5, s6, s7, s8, r1, r2, r3, r4⟩ := C44_control_derivatives hd hc hct h
    obtain ⟨h1, h2⟩ := hsc c rfl
    have z2 := neg_zero_entry h2
    have hdm : d.mirror = d := by
      simp only [AeroDict.mirror, neg_zero_entry hf.roll, neg_zero_entry hf.yaw, neg_zero_entry hf.beta, hf.localState, Option.map_none]
      rw [← hf.localState]
    have M := @solvedAt_mirror nm pos ops table mem simps fuel o units p hpos hs hp hw hnp hcg ho bad ps
    refine ⟨fun A hA => lateral_of (r1.1 A hA) (M s1 s2 ht hf.localState ?_ hdm.symm ?_),
      fun A hA => longitudinal_of (r2.1 A hA) (M s3 s3 ht hf.localState ?_ hdm.symm ?_) (M s4 s4 ht hf.localState ?_ hdm.symm ?_),
      fun A hA => lateral_of (r3.1 A hA) (M s5 s6 ht hf.localState ?_ hdm.symm ?_),
      fun A hA => longitudinal_of (r4.1 A hA) (M s7 s7 ht hf.localState ?_ hdm.symm ?_) (M s8 s8 ht hf.localState ?_ hdm.symm ?_)⟩
    all_goals first
      | (simp [CtrlDict.truthy]; done)
      | (simp only [CtrlDict.mirror, z2, Option.map_some, h1, h2]; norm_num; done)
  by_cases hg : ctrlGiven w = true
  · obtain ⟨c, hc⟩ : ∃ c, w.ctrl = some c := by
      rcases hc : w.ctrl with _ | c
      · simp [ctrlGiven, hc] at hg
      · exact ⟨c, rfl⟩
    exact key w w' c hd hc (by simpa [ctrlGiven, hc] using hg) (hc ▸ hsc) h
  · have k := (C20_machup_partial (ps := ps) w (fun c hc => by simpa [ctrlGiven, hc] using hg) 0 0 0 none).1
    rw [h] at k
    refine key { w with ctrl := some { aileron := some 0, elevator := some 0, rudder := some 0, flap := some 0 } }
      (controlDerivatives (B := o.backend p simps fuel bad) ps
        { w with ctrl := some { aileron := some 0, elevator := some 0, rudder := some 0, flap := some 0 } }).2 _ hd rfl rfl ?_ (Prod.ext k.symm rfl)
    rintro _ ⟨⟩
    exact ⟨rfl, rfl⟩

/-- **C137** (`damping_derivatives`). For the same aircraft, the pitch rate has no effect on side force, rolling and yawing moment, roll and yaw
rate have none on lift, drag, axial and normal force and pitching moment. -/
theorem C137_damping {w w' : World (o.backend p simps fuel bad)} {d : AeroDict (Fin (sectionsOf o.wing))} {c : CtrlDict} {D : DampDeriv}
    (hd : w.aero = some d) (ht : d.truthy = true) (hf : SymFlow d) (hc : w.ctrl = some c) (hct : c.truthy = true) (hsc : SymCtrl (some c))
    (h : dampingDerivatives (B := o.backend p simps fuel bad) ps w = (.ok D, w')) : D.Decoupled := by
  obtain ⟨-, -, -, pF, pB, qF, qB, rF, rB, s1, s2, s3, s4, s5, s6, r1, r2, r3⟩ := C43_damping_partial hd ht h
  rw [hc] at s1 s2 s3 s4 s5 s6
  have hcm : c.mirror = c := by
    obtain ⟨h1, h2⟩ := hsc c rfl
    simp only [CtrlDict.mirror, neg_zero_entry h1, neg_zero_entry h2]
  have z2 := neg_zero_entry hf.yaw
  have z3 := neg_zero_entry hf.beta
  have M := @solvedAt_mirror nm pos ops table mem simps fuel o units p hpos hs hp hw hnp hcg ho bad ps
  refine ⟨fun A hA => lateral_of (r1.1 A hA) (M s1 s2 ?_ hf.localState hct ?_ hcm.symm),
    fun A hA => longitudinal_of (r2.1 A hA) (M s3 s3 ?_ hf.localState hct ?_ hcm.symm) (M s4 s4 ?_ hf.localState hct ?_ hcm.symm),
    fun A hA => lateral_of (r3.1 A hA) (M s5 s6 ?_ hf.localState hct ?_ hcm.symm)⟩
  all_goals first
    | (simp [AeroDict.truthy]; done)
    | (simp only [AeroDict.mirror, z2, z3, hf.localState, hf.roll, hf.yaw, Option.map_some, Option.map_none]; norm_num; done)

/-- **C137** (`derivatives`). The same for the derivatives that `derivatives` reports. -/
theorem C137_derivatives {w w' : World (o.backend p simps fuel bad)} {d : AeroDict (Fin (sectionsOf o.wing))} {c : CtrlDict} {D : AllDerivs} {f : Option String}
    (hd : w.aero = some d) (ht : d.truthy = true) (hf : SymFlow d) (hc : w.ctrl = some c) (hct : c.truthy = true) (hsc : SymCtrl (some c))
    (h : derivatives (B := o.backend p simps fuel bad) ps f w = (.ok (some D), w')) : D.stab.Decoupled ∧ D.cont.Decoupled ∧ D.damp.Decoupled := by
  have hB : ((o.backend p simps fuel bad).hasProps && (o.backend p simps fuel bad).hasWings) = false := by
    show (!p.props.isEmpty && _) = false; rw [hnp]; rfl
  unfold derivatives at h
  rw [if_pos (show (o.backend p simps fuel bad).hasWings = true by show (!p.wings.isEmpty) = true; simp [hw])] at h
  obtain ⟨s, w1, h1, h⟩ := bind_ok.1 h
  obtain ⟨k, w2, h2, h⟩ := bind_ok.1 h
  obtain ⟨q, w3, h3, h⟩ := bind_ok.1 h
  obtain ⟨_, w4, h4, h⟩ := bind_ok.1 h
  cases h
  obtain ⟨⟨d1, e1, m1⟩, c1, -⟩ := C42_stability_derivatives hd ht h1
  have e := m1.2 hB
  subst e
  obtain ⟨⟨d2, e2, m2⟩, c2, -⟩ := C44_control_derivatives e1 (c1.trans hc) hct h2
  have e := m2.2 hB
  subst e
  have hf1 : SymFlow ({ d with alpha := some (d.alpha.getD 0), beta := some (d.beta.getD 0) } : AeroDict (Fin (sectionsOf o.wing))) :=
    ⟨hf.beta, hf.roll, hf.yaw, hf.localState⟩
  refine ⟨C137_stability hpos hs hp hw hnp hcg ho hd ht hf hc hct hsc h1,
    C137_control hpos hs hp hw hnp hcg ho e1 (by simp [AeroDict.truthy]) hf1 (by rw [c1, hc]; exact hsc) h2,
    C137_damping hpos hs hp hw hnp hcg ho e2 (by simp [AeroDict.truthy]) hf1 c2 (by simp [CtrlDict.truthy]) ?_ h3⟩
  rintro _ ⟨⟩
  exact hsc c rfl

end
end

/-- flight conditions of the demonstration aircraft: small angles without rotation, or no angles and a moderate rate of yaw -/
structure UnitGood {ι : Type*} (d : AeroDict ι) : Prop where
  V : d.Vmag = some 10
  rho : d.rho = some 1
  field : d.localState = none
  small : |d.alpha.getD 0| ≤ 1 ∧ |d.beta.getD 0| ≤ 1
  turn : (d.alpha.getD 0 = 0 ∧ d.beta.getD 0 = 0 ∧ |d.yaw.getD 0| ≤ 1) ∨ (d.roll.getD 0 = 0 ∧ d.pitch.getD 0 = 0 ∧ d.yaw.getD 0 = 0)

theorem unit_turning {g : Grid} (hg : mkGrid unitPlane true = .ok g) {d : AeroDict (Fin g.data.length)} (hd : UnitGood d)
    (st : LLState (Fin g.data.length)) (c : Option CtrlDict) : ∃ R, (llSolve (g.geom unitPlane.cg) st "linear" (some d) c).1 = .ok R := by
  have h90 : ∀ {x : ℝ}, |x| ≤ 1 → |x| < 90 := fun h => by linarith
  have front : FromFront unitPlane (d.alpha.getD 0) (d.beta.getD 0) := by
    refine ⟨h90 hd.small.2, fun s hs => ?_⟩
    rw [unit_segments] at hs
    rcases List.mem_pair.1 hs with rfl | rfl <;> simpa [unitSeg] using h90 hd.small.1
  have sec : ∀ i : Fin g.data.length, (g.data.get i).ua = ⟨-1, 0, 0⟩ ∧ |(g.data.get i).rcp.y| ≤ 1 ∧ (g.data.get i).rcp.z = 0 := by
    obtain ⟨g', hg', a, b, e, e1, e2, -⟩ := unit_grid true
    rw [hg] at hg'
    cases hg'
    intro i
    have : g.data.get i = a ∨ g.data.get i = b := by
      have hm : ∀ x ∈ g.data, x = a ∨ x = b := fun x hx => by
        rw [e] at hx
        exact List.mem_pair.1 hx
      exact hm _ (List.get_mem g.data i)
    rcases this with h | h <;> rw [h]
    · show a.toSection.ua = _ ∧ |a.toSection.rcp.y| ≤ 1 ∧ a.toSection.rcp.z = 0
      rw [e1]
      refine ⟨rfl, ?_, rfl⟩
      norm_num [unitSec, exSec, abs_le, show Side.right ≠ Side.left by decide]
    · show b.toSection.ua = _ ∧ |b.toSection.rcp.y| ≤ 1 ∧ b.toSection.rcp.z = 0
      rw [e2]
      refine ⟨rfl, ?_, rfl⟩
      norm_num [unitSec, exSec, abs_le, show Side.right ≠ Side.left by decide]
  refine C128_turning unit_straight hg _ hd.V hd.rho rfl rfl hd.field (by norm_num) front (fun w hw i => ?_) st c
  obtain ⟨s1, s2, s3⟩ := sec i
  obtain ⟨hn, k, hk, hw⟩ := hw
  have hkn : k ≠ 0 := by
    rintro rfl
    rw [hw] at hn
    simp [nrm, dot] at hn
  have hk0 : 0 < k := lt_of_le_of_ne (by linarith) hkn.symm
  have hww : dot w w = 100 := by
    rw [← nrm_mul_self, hn]; norm_num [abs_of_pos]
  have c1 := small_cos hd.small.1
  have c2 := small_cos hd.small.2
  have hr : ∀ x : ℝ, x * (Real.pi / 180) = rad x := fun x => by unfold rad; ring
  have hx : w.x < 0 := by
    rw [hw, hr, hr]
    show -(k * (Real.cos (rad (d.alpha.getD 0)) * Real.cos (rad (d.beta.getD 0)))) < 0
    have : 0 < k * (Real.cos (rad (d.alpha.getD 0)) * Real.cos (rad (d.beta.getD 0))) := mul_pos hk0 (mul_pos (by linarith) (by linarith))
    linarith
  rw [s1]
  have hc : unitPlane.cg.z = 0 ∧ unitPlane.cg.y = 0 := by rw [unit_cg]; exact ⟨rfl, rfl⟩
  rcases hd.turn with ⟨t1, t2, t3⟩ | ⟨t1, t2, t3⟩
  · have hy : w.y = 0 := by rw [hw, t2]; simp
    have hz : w.z = 0 := by rw [hw, t1]; simp
    simp only [dot, hy, hz, mul_zero, add_zero] at hww
    have hx10 : w.x = -10 := by nlinarith
    have hb : |d.yaw.getD 0 * (g.data.get i).rcp.y| ≤ 1 := by
      rw [abs_mul]; exact mul_le_one₀ t3 (abs_nonneg _) s2
    rw [abs_le] at hb
    simp only [dot, sub_x, sub_y, sub_z, cross_x, s3, hc.1, hc.2, hy, hz, hx10]
    constructor
    · nlinarith [hb.1, hb.2]
    · intro h
      nlinarith [hb.1, hb.2]
  · rw [t1, t2, t3]
    have e : w - cross (⟨0, 0, 0⟩ : V3) ((g.data.get i).rcp - unitPlane.cg) = w := by ext <;> simp
    rw [e]
    refine ⟨by rw [hww]; norm_num, ?_⟩
    simp only [dot]
    intro h
    linarith

/-- The demonstration aircraft, in all these flight conditions, is solved by its `MachUp` object. -/
theorem unit_solvesAll {g : Grid} (hg : mkGrid unitPlane true = .ok g) (simps : List ℝ → List ℝ → ℝ) (fuel : ℕ)
    (bad : Act (LLState (Fin (sectionsOf (some (⟨g, 2, g.refArea / 2⟩ : WingPart)))) × List (PropSlot (Fin (sectionsOf (some (⟨g, 2, g.refArea / 2⟩ : WingPart)))))) (Option Loads)) :
    SolvesAll (B := Analyser.backend ⟨some ⟨g, 2, g.refArea / 2⟩, none⟩ unitPlane simps fuel bad) none UnitGood := by
  intro w d hd hgood
  have hw : unitPlane.wings ≠ [] := by rw [unit_wings]; simp
  obtain ⟨R, hR⟩ := unit_turning hg hgood
    (id w.st : LLState (Fin (sectionsOf (some (⟨g, 2, g.refArea / 2⟩ : WingPart)))) × List (PropSlot (Fin (sectionsOf (some (⟨g, 2, g.refArea / 2⟩ : WingPart)))))).1 w.ctrl
  have k := muSolve_wingsOnly (B := (Analyser.backend ⟨some ⟨g, 2, g.refArea / 2⟩, none⟩ unitPlane simps fuel bad)) (ps := none) (w := w) (d := d)
    rfl (by show (!unitPlane.wings.isEmpty) = true; simp [hw]) hd (by
      unfold aeroGiven
      rw [hd]
      simp [AeroDict.truthy, hgood.V])
  have k2 := backend_wingSolve (o := ⟨some ⟨g, 2, g.refArea / 2⟩, none⟩) (p := unitPlane) (simps := simps) (fuel := fuel) (bad := bad) d w.ctrl w.st
  rw [if_pos (show (Analyser.mk (some (⟨g, 2, g.refArea / 2⟩ : WingPart)) none).wing.isSome = true from rfl)] at k2
  have k3 : ((Analyser.backend ⟨some ⟨g, 2, g.refArea / 2⟩, none⟩ unitPlane simps fuel bad).wingSolve d w.ctrl w.st).1 = .ok R := (congrArg Prod.fst k2).trans hR
  rw [k3] at k
  exact ⟨_, _, Prod.ext k rfl⟩

/-- Non-vacuity of C137: `derivatives` of the demonstration aircraft, at 10 straight ahead, returns numbers. -/
theorem unit_derives (table : String → ℝ → ℝ) (mem : String → ℕ → ℕ → Option ℝ) (simps : List ℝ → List ℝ → ℝ) (fuel : ℕ) : ∃ o, openMachUp table mem unitPlane = .ok o ∧
    SymmetricCalls unitOps ∧ unitPlane.cg.y = 0 ∧ ∀ bad, ∃ D w', derivatives (B := o.backend unitPlane simps fuel bad) none none
      (o.fresh unitPlane simps fuel bad (some { Vmag := some 10, rho := some 1 }) (some { aileron := some 0 })) = (.ok (some D), w') ∧
      D.stab.b ≠ none ∧ D.cont.da ≠ none ∧ D.damp.p ≠ none := by
  obtain ⟨g, hg⟩ := grid_exists _ _ _ unit_wellFormed true
  have hS : g.refArea = 2 := by
    obtain ⟨g', hg', -, -, -, -, -, h⟩ := unit_grid true
    rw [show mkGrid unitPlane true = _ from hg] at hg'
    cases hg'
    exact h
  refine ⟨_, unit_open table mem hg, ?_, by rw [unit_cg], fun bad => ?_⟩
  · refine symmetricCalls_of fun name parent location side d h _ => ?_
    simp [unitOps] at h
    obtain ⟨-, -, -, rfl, rfl⟩ := h
    exact ⟨rfl, rfl⟩
  have hall := unit_solvesAll hg simps fuel bad
  have hW : (Analyser.backend ⟨some ⟨g, 2, g.refArea / 2⟩, none⟩ unitPlane simps fuel bad).hasWings = true := by
    show (!unitPlane.wings.isEmpty) = true; rw [unit_wings]; rfl
  have hB : ((Analyser.backend ⟨some ⟨g, 2, g.refArea / 2⟩, none⟩ unitPlane simps fuel bad).hasProps && (Analyser.backend ⟨some ⟨g, 2, g.refArea / 2⟩, none⟩ unitPlane simps fuel bad).hasWings) = false := rfl
  obtain ⟨D, w1, h1⟩ := stab_returns hW rfl hall (w := Analyser.fresh ⟨some ⟨g, 2, g.refArea / 2⟩, none⟩ unitPlane simps fuel bad (some { Vmag := some 10, rho := some 1 }) (some { aileron := some 0 }))
    rfl rfl ⟨rfl, rfl, rfl, by norm_num [abs_le], .inr ⟨rfl, rfl, rfl⟩⟩ ⟨rfl, rfl, rfl, by norm_num [abs_le], .inr ⟨rfl, rfl, rfl⟩⟩
    ⟨rfl, rfl, rfl, by norm_num [abs_le], .inr ⟨rfl, rfl, rfl⟩⟩ ⟨rfl, rfl, rfl, by norm_num [abs_le], .inr ⟨rfl, rfl, rfl⟩⟩
  obtain ⟨⟨d1, a1, m1⟩, c1, -, _, _, _, _, -, -, -, -, -, r1⟩ := C42_stability_derivatives rfl rfl h1
  have e := m1.2 hB
  subst e
  obtain ⟨C, w2, h2⟩ := cont_returns hW rfl hall a1 (c1.trans rfl) rfl ⟨rfl, rfl, rfl, by norm_num, .inl (by norm_num)⟩
  obtain ⟨⟨d2, a2, m2⟩, c2, -, _, _, _, _, _, _, _, _, -, -, -, -, -, -, -, -, r2, -⟩ := C44_control_derivatives a1 (c1.trans rfl) rfl h2
  have e := m2.2 hB
  subst e
  have hl : (Analyser.backend ⟨some ⟨g, 2, g.refArea / 2⟩, none⟩ unitPlane simps fuel bad).lat = 2 := rfl
  have hl' : (Analyser.backend ⟨some ⟨g, 2, g.refArea / 2⟩, none⟩ unitPlane simps fuel bad).long = 1 := by
    show g.refArea / 2 = 1; rw [hS]; norm_num
  have hS' : (Analyser.backend ⟨some ⟨g, 2, g.refArea / 2⟩, none⟩ unitPlane simps fuel bad).Sw = 2 := hS
  obtain ⟨P, w3, h3⟩ := damp_returns hW rfl (by rw [hl]; norm_num) (by rw [hl']; norm_num) hall a2 (by simp [AeroDict.truthy]) (by
    intro p q r hr o ho
    rw [hl] at hr
    norm_num at hr
    have ho' : |o.getD 0| ≤ 1 := by
      rcases ho with rfl | rfl
      · simp
      · simp only [Option.getD_some]; linarith
    exact ⟨⟨rfl, rfl, rfl, by norm_num, .inl ⟨rfl, rfl, ho'⟩⟩, ⟨rfl, rfl, rfl, by norm_num, .inl ⟨rfl, rfl, ho'⟩⟩,
      ⟨rfl, rfl, rfl, by norm_num, .inl ⟨rfl, rfl, by norm_num⟩⟩⟩)
  obtain ⟨-, -, -, _, _, _, _, _, _, -, -, -, -, -, -, r3, -⟩ := C43_damping_partial a2 (by simp [AeroDict.truthy]) h3
  refine ⟨⟨D, staticMargin D, C, P⟩, w3, ?_, ?_, ?_, ?_⟩
  · unfold derivatives
    rw [if_pos hW, bind_of_ok h1]
    simp only
    rw [bind_of_ok h2, bind_of_ok h3]
    rfl
  · rw [Ne, r1.2, hl, hl', hS']; norm_num [AeroDict.q]
  · rw [Ne, r2.2, hl, hl', hS']; norm_num [AeroDict.q]
  · rw [Ne, r3.2, hl, hl', hS']; norm_num [AeroDict.q]

end Verif
