import Verif.Examples.FlatWing
import Verif.Thm.MUDerivs
import Mathlib.Analysis.SpecialFunctions.Trigonometric.Bounds

/-!
# The derivative functions return on the flat wing
-/

namespace Verif
open V3 Act

section returns
variable {ι : Type} {B : Backend ι} {ps : Option B.π} {good : AeroDict ι → Prop}

/-- every solve at a good state returns -/
def SolvesAll (ps : Option B.π) (good : AeroDict ι → Prop) : Prop :=
  ∀ (w : World B) d, w.aero = some d → good d → ∃ r w', muSolve ps w = (.ok r, w')

theorem central_aero_returns (hB : (B.hasProps && B.hasWings) = false) (hg : SolvesAll ps good)
    {f : ℝ → AeroDict ι → AeroDict ι} (hf : KeySetter f) {x0 δ : ℝ}
    {w : World B} {d : AeroDict ι} (hd : w.aero = some d) (h1 : good (f (x0 - δ) d)) (h2 : good (f (x0 + δ) d)) :
    ∃ r w', central ps (fun x => setAero (f x)) x0 δ w = (.ok r, w') ∧ w'.aero = some (f (x0 + δ) d) ∧
      w'.ctrl = w.ctrl := by
  obtain ⟨r1, w1, e1⟩ := hg { w with aero := some (f (x0 - δ) d) } _ rfl h1
  obtain ⟨d1, hd1, hs1⟩ := muSolve_aero rfl e1
  have := hs1.2 hB
  subst this
  obtain ⟨r2, w2, e2⟩ := hg { w1 with aero := some (f (x0 + δ) (f (x0 - δ) d)) } _ rfl (by rw [hf.over]; exact h2)
  have e : central ps (fun x => setAero (f x)) x0 δ w = (.ok (r2, r1), w2) := by
    unfold central
    rw [bind_of_ok (setAero_some hd), bind_of_ok e1, bind_of_ok (setAero_some hd1), bind_of_ok e2]
    rfl
  obtain ⟨⟨d', hd', hs⟩, hc, _⟩ := central_aero hf hd e
  exact ⟨_, _, e, by rw [hd', hs.2 hB], hc⟩

theorem central_ctrl_returns (hB : (B.hasProps && B.hasWings) = false) (hg : SolvesAll ps good)
    {f : ℝ → CtrlDict → CtrlDict} (over : ∀ x y d, f y (f x d) = f y d) {x0 δ : ℝ}
    {w : World B} {d : AeroDict ι} {c : CtrlDict} (hd : w.aero = some d) (hc : w.ctrl = some c) (h1 : good d) :
    ∃ r w', central ps (fun x => setCtrl (f x)) x0 δ w = (.ok r, w') ∧ w'.aero = some d ∧
      w'.ctrl = some (f (x0 + δ) c) := by
  obtain ⟨r1, w1, e1⟩ := hg { w with ctrl := some (f (x0 - δ) c) } _ hd h1
  obtain ⟨d1, hd1, hs1⟩ := muSolve_aero (w := { w with ctrl := some (f (x0 - δ) c) }) hd e1
  have := hs1.2 hB
  subst this
  have hc1 := muSolve_ctrl e1
  obtain ⟨r2, w2, e2⟩ := hg { w1 with ctrl := some (f (x0 + δ) (f (x0 - δ) c)) } _ hd1 h1
  have e : central ps (fun x => setCtrl (f x)) x0 δ w = (.ok (r2, r1), w2) := by
    unfold central
    rw [bind_of_ok (setCtrl_some hc), bind_of_ok e1, bind_of_ok (setCtrl_some hc1), bind_of_ok e2]
    rfl
  obtain ⟨⟨d', hd', hs⟩, hc', _⟩ := central_ctrl over hd hc e
  exact ⟨_, _, e, by rw [hd', hs.2 hB], hc'⟩

theorem dynPressure_returns (hW : B.hasWings = true) {w : World B} {d : AeroDict ι} (hd : w.aero = some d) :
    dynPressure w = (.ok (dynPress B d), w) := by
  unfold dynPressure
  rw [if_pos hW, getAero_some hd]

theorem stab_returns (hW : B.hasWings = true) (hP : B.hasProps = false) (hg : SolvesAll ps good) {w : World B} {d : AeroDict ι}
    (hd : w.aero = some d) (ht : d.truthy = true)
    (h1 : good { d with alpha := some (d.alpha.getD 0 - 0.5) }) (h2 : good { d with alpha := some (d.alpha.getD 0 + 0.5) })
    (h3 : good { d with alpha := some (d.alpha.getD 0), beta := some (d.beta.getD 0 - 0.5) })
    (h4 : good { d with alpha := some (d.alpha.getD 0), beta := some (d.beta.getD 0 + 0.5) }) :
    ∃ D w', stabilityDerivatives ps w = (.ok D, w') := by
  have hB : (B.hasProps && B.hasWings) = false := by rw [hP]; rfl
  obtain ⟨r, w1, e1, a1, _⟩ := central_aero_returns hB hg keySetter_alpha hd h1 h2
  obtain ⟨r', w2, e2, a2, _⟩ := central_aero_returns hB hg keySetter_beta (x0 := d.beta.getD 0) (δ := 0.5)
    (w := { w1 with aero := some { d with alpha := some (d.alpha.getD 0) } }) rfl h3 h4
  unfold stabilityDerivatives
  rw [get_bind, if_pos (by simp [aeroGiven, hd, ht])]
  unfold stabBody
  rw [bind_of_ok (dynPressure_returns hW hd)]
  simp only
  rw [bind_of_ok (getAero_some hd), bind_of_ok (show central ps setAlpha _ _ _ = _ from e1)]
  rw [bind_of_ok (show setAlpha _ _ = _ from setAero_some a1), bind_of_ok (getAero_some rfl), bind_of_ok (show central ps setBeta _ _ _ = _ from e2)]
  rw [bind_of_ok (show setBeta _ _ = _ from setAero_some a2)]
  exact ⟨_, _, rfl⟩

theorem damp_returns (hW : B.hasWings = true) (hP : B.hasProps = false) (hl : B.lat ≠ 0) (hl' : B.long ≠ 0)
    (hg : SolvesAll ps good) {w : World B} {d : AeroDict ι}
    (hd : w.aero = some d) (ht : d.truthy = true)
    (hgood : ∀ p q r : ℝ,
      |r - d.yaw.getD 0| ≤ |0.005 * 2 * d.Vmag.getD 10 / B.lat| → ∀ o, (o = d.yaw ∨ o = some r) →
      good { d with roll := some p, pitch := some q, yaw := o } ∧
      good { d with roll := some p, yaw := o } ∧ good { d with roll := some p }) :
    ∃ D w', dampingDerivatives ps w = (.ok D, w') := by
  have hB : (B.hasProps && B.hasWings) = false := by rw [hP]; rfl
  have hy : |d.yaw.getD 0 - d.yaw.getD 0| ≤ |0.005 * 2 * d.Vmag.getD 10 / B.lat| := by
    rw [sub_self, abs_zero]; exact abs_nonneg _
  have hgr := fun p => (hgood p 0 _ hy d.yaw (.inl rfl)).2.2
  have hgp := fun p q => (hgood p q _ hy d.yaw (.inl rfl)).1
  have hgy := fun p q s (hs : |s| = |0.005 * 2 * d.Vmag.getD 10 / B.lat|) =>
    (hgood p q (d.yaw.getD 0 + s) (by rw [add_sub_cancel_left]; exact hs.le) _ (.inr rfl)).1
  obtain ⟨r, w1, e1, a1, _⟩ := central_aero_returns hB hg keySetter_roll (x0 := d.roll.getD 0)
    (δ := 0.005 * 2 * d.Vmag.getD 10 / B.lat) hd (hgr _) (hgr _)
  obtain ⟨r', w2, e2, a2, _⟩ := central_aero_returns hB hg keySetter_pitch (x0 := d.pitch.getD 0)
    (δ := 0.005 * 2 * d.Vmag.getD 10 / B.long)
    (w := { w1 with aero := some { d with roll := some (d.roll.getD 0) } }) rfl (hgp _ _) (hgp _ _)
  obtain ⟨r'', w3, e3, a3, _⟩ := central_aero_returns hB hg keySetter_yaw (x0 := d.yaw.getD 0)
    (δ := 0.005 * 2 * d.Vmag.getD 10 / B.lat)
    (w := { w2 with aero := some { d with roll := some (d.roll.getD 0), pitch := some (d.pitch.getD 0) } }) rfl
    (by have := hgy (d.roll.getD 0) (d.pitch.getD 0) (-(0.005 * 2 * d.Vmag.getD 10 / B.lat)) (abs_neg _)
        rwa [← sub_eq_add_neg] at this)
    (hgy (d.roll.getD 0) (d.pitch.getD 0) _ rfl)
  unfold dampingDerivatives
  rw [get_bind, if_pos (by simp [aeroGiven, hd, ht])]
  unfold dampBody
  rw [bind_of_ok (getAero_some hd), bind_of_ok (dynPressure_returns hW hd), if_neg (by simp [hl, hl'])]
  simp only
  rw [bind_of_ok (getAero_some hd), bind_of_ok (show central ps setRoll _ _ _ = _ from e1)]
  rw [bind_of_ok (show setRoll _ _ = _ from setAero_some a1), bind_of_ok (getAero_some rfl), bind_of_ok (show central ps setPitch _ _ _ = _ from e2)]
  rw [bind_of_ok (show setPitch _ _ = _ from setAero_some a2), bind_of_ok (getAero_some rfl), bind_of_ok (show central ps setYaw _ _ _ = _ from e3)]
  rw [bind_of_ok (show setYaw _ _ = _ from setAero_some a3)]
  exact ⟨_, _, rfl⟩

theorem cont_returns (hW : B.hasWings = true) (hP : B.hasProps = false) (hg : SolvesAll ps good) {w : World B}
    {d : AeroDict ι} {c : CtrlDict} (hd : w.aero = some d) (hc : w.ctrl = some c) (ht : c.truthy = true) (h1 : good d) :
    ∃ D w', controlDerivatives ps w = (.ok D, w') := by
  have hB : (B.hasProps && B.hasWings) = false := by rw [hP]; rfl
  obtain ⟨r1, w1, e1, a1, c1⟩ := central_ctrl_returns hB hg (f := fun x d => { d with aileron := some x })
    (fun _ _ _ => rfl) (x0 := c.aileron.getD 0) (δ := 0.25) hd hc h1
  obtain ⟨r2, w2, e2, a2, c2⟩ := central_ctrl_returns hB hg (f := fun x d => { d with elevator := some x })
    (fun _ _ _ => rfl) (x0 := c.elevator.getD 0) (δ := 0.25)
    (w := { w1 with ctrl := some { c with aileron := some (c.aileron.getD 0) } }) a1 rfl h1
  obtain ⟨r3, w3, e3, a3, c3⟩ := central_ctrl_returns hB hg (f := fun x d => { d with rudder := some x })
    (fun _ _ _ => rfl) (x0 := c.rudder.getD 0) (δ := 0.25)
    (w := { w2 with ctrl := some { c with aileron := some (c.aileron.getD 0), elevator := some (c.elevator.getD 0) } })
    a2 rfl h1
  obtain ⟨r4, w4, e4, a4, c4⟩ := central_ctrl_returns hB hg (f := fun x d => { d with flap := some x })
    (fun _ _ _ => rfl) (x0 := c.flap.getD 0) (δ := 0.25)
    (w := { w3 with ctrl := some { c with aileron := some (c.aileron.getD 0), elevator := some (c.elevator.getD 0),
                                          rudder := some (c.rudder.getD 0) } }) a3 rfl h1
  unfold controlDerivatives
  rw [get_bind, if_pos (by simp [ctrlGiven, hc, ht])]
  unfold contBody
  rw [bind_of_ok (dynPressure_returns hW hd)]
  simp only
  rw [bind_of_ok (getCtrl_some hc), bind_of_ok (show central ps setAileron _ _ _ = _ from e1)]
  rw [bind_of_ok (show setAileron _ _ = _ from setCtrl_some c1), bind_of_ok (getCtrl_some rfl), bind_of_ok (show central ps setElevator _ _ _ = _ from e2)]
  rw [bind_of_ok (show setElevator _ _ = _ from setCtrl_some c2), bind_of_ok (getCtrl_some rfl), bind_of_ok (show central ps setRudder _ _ _ = _ from e3)]
  rw [bind_of_ok (show setRudder _ _ = _ from setCtrl_some c3), bind_of_ok (getCtrl_some rfl), bind_of_ok (show central ps setFlap _ _ _ = _ from e4)]
  rw [bind_of_ok (show setFlap _ _ = _ from setCtrl_some c4)]
  exact ⟨_, _, rfl⟩

end returns

/-- states at which the flat wing can be solved: small angles, not too much yaw rate -/
structure FlatGood (d : AeroDict (Fin 2)) : Prop where
  V : d.Vmag = some 10
  rho : d.rho = some 1
  field : d.localState = none
  alpha : |d.alpha.getD 0| ≤ 1
  beta : |d.beta.getD 0| ≤ 1
  yaw : |d.yaw.getD 0| ≤ 3

theorem small_cos {x : ℝ} (h : |x| ≤ 1) : 9 / 10 ≤ Real.cos (rad x) := by
  have h1 : |rad x| ≤ 1 / 45 := by
    unfold rad
    rw [abs_div, abs_mul, abs_of_pos Real.pi_pos, abs_of_pos (by norm_num : (0:ℝ) < 180)]
    have := Real.pi_lt_four
    have := Real.pi_pos
    rw [div_le_iff₀ (by norm_num)]
    nlinarith [abs_nonneg x]
  have h2 := Real.one_sub_sq_div_two_le_cos (x := rad x)
  have h3 : rad x ^ 2 ≤ (1 / 45) ^ 2 := sq_le_sq' (by linarith [(abs_le.1 h1).1]) (abs_le.1 h1).2
  nlinarith

theorem flat_free {a b : ℝ} (ha : |a| ≤ 1) (hb : |b| ≤ 1) : ∃ w, freestream 10 a b = some w ∧ 3 < |w.x| := by
  have ca := small_cos ha
  have cb := small_cos hb
  set D := Real.sqrt (1 - Real.sin (rad a) * Real.sin (rad a) * Real.sin (rad b) * Real.sin (rad b)) with hDdef
  have hf := (C23_freestream 10 a b).1
  have hD0 : D ≠ 0 := by
    intro h
    have : freestream 10 a b = none := by
      unfold freestream
      simp only
      rw [if_pos h]
    exact absurd (hf.1 this).1 (by linarith)
  have hD1 : D ≤ 1 := by
    rw [hDdef]
    refine Real.sqrt_le_one.2 ?_
    nlinarith [mul_nonneg (mul_self_nonneg (Real.sin (rad a))) (mul_self_nonneg (Real.sin (rad b)))]
  have hDp : 0 < D := lt_of_le_of_ne (Real.sqrt_nonneg _) (Ne.symm hD0)
  refine ⟨⟨10 / D * (-Real.cos (rad a) * Real.cos (rad b)), 10 / D * (-Real.cos (rad a) * Real.sin (rad b)),
    10 / D * (-Real.sin (rad a) * Real.cos (rad b))⟩, ?_, ?_⟩
  · unfold freestream
    simp only
    rw [if_neg hD0]
  · have h1 : (1:ℝ) ≤ 1 / D := by rw [le_div_iff₀ hDp]; linarith
    have h2 : 81 / 100 ≤ Real.cos (rad a) * Real.cos (rad b) := by nlinarith
    have : 10 / D * (-Real.cos (rad a) * Real.cos (rad b)) = -(10 * (1 / D) * (Real.cos (rad a) * Real.cos (rad b))) := by
      ring
    rw [this, abs_neg, abs_of_nonneg (by positivity)]
    nlinarith

/-- the `MachUp` object of the flat wing -/
noncomputable abbrev flatB : Backend (Fin 2) := wingsBackend flatGeom 2 2 1

theorem flat_solvesAll (ps : Option Unit) : SolvesAll (B := flatB) ps FlatGood := by
  intro w d hd hg
  obtain ⟨v, hv, hx⟩ := flat_free hg.alpha hg.beta
  have hvx : v.x ≠ 0 := by intro h; rw [h, abs_zero] at hx; linarith
  obtain ⟨F, C, hs⟩ := flat_llSolve w.st w.ctrl hg.V hg.rho hg.field hv hvx (lt_of_le_of_lt hg.yaw hx)
  rw [wings_muSolve hd (by simp [AeroDict.truthy, hg.V])]
  rcases hr : llSolve flatGeom w.st "linear" (some d) w.ctrl with ⟨e | R, st'⟩
  · rw [hr] at hs; cases hs
  · exact ⟨_, _, rfl⟩

/-- a state with rotation rates -/
noncomputable def flatAero : AeroDict (Fin 2) :=
  { Vmag := some 10, rho := some 1, roll := some 0, pitch := some 1, yaw := some 2 }

theorem flatAero_truthy : flatAero.truthy = true := by simp [AeroDict.truthy, flatAero]

theorem flatAero_damp (ps : Option Unit) {w : World flatB} (hw : w.aero = some flatAero) :
    ∃ D w', dampingDerivatives (B := flatB) ps w = (.ok D, w') := by
  refine damp_returns rfl rfl (by norm_num [wingsBackend]) (by norm_num [wingsBackend]) (flat_solvesAll ps) hw flatAero_truthy ?_
  intro p q r hr o ho
  have hyaw : |o.getD 0| ≤ 3 := by
    rcases ho with rfl | rfl
    · simp [flatAero]; norm_num
    · simp only [flatAero, wingsBackend, Option.getD_some] at hr ⊢
      have h1 : |(0.005 * 2 * 10 / 2 : ℝ)| ≤ 1 := by norm_num [abs_le]
      have := abs_le.1 (hr.trans h1)
      exact abs_le.2 ⟨by linarith, by linarith⟩
  refine ⟨⟨rfl, rfl, rfl, ?_, ?_, hyaw⟩, ⟨rfl, rfl, rfl, ?_, ?_, hyaw⟩, ⟨rfl, rfl, rfl, ?_, ?_, ?_⟩⟩ <;>
    simp [flatAero] <;> norm_num

end Verif
