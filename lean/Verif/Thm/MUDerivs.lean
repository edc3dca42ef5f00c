import Verif.Lemmas.MU

/-!
# The derivative functions of `MachUp` (C42, C43, C44, C45)

All theorems hold for arbitrary solvers (`Backend`): whatever the wing and propeller models return.
-/

namespace Verif
open Act

variable {ι : Type} {B : Backend ι}

theorem getAero_some {α : Type} {f : AeroDict ι → α} {w : World B} {d : AeroDict ι} (hd : w.aero = some d) :
    getAero f w = (.ok (f d), w) := by unfold getAero; rw [hd]
theorem getCtrl_some {α : Type} {f : CtrlDict → α} {w : World B} {d : CtrlDict} (hd : w.ctrl = some d) :
    getCtrl f w = (.ok (f d), w) := by unfold getCtrl; rw [hd]
theorem setAero_some {f : AeroDict ι → AeroDict ι} {w : World B} {d : AeroDict ι} (hd : w.aero = some d) :
    setAero f w = (.ok (), { w with aero := some (f d) }) := by unfold setAero; rw [hd]
theorem setCtrl_some {f : CtrlDict → CtrlDict} {w : World B} {d : CtrlDict} (hd : w.ctrl = some d) :
    setCtrl f w = (.ok (), { w with ctrl := some (f d) }) := by unfold setCtrl; rw [hd]

theorem dynPressure_ok {w w' : World B} {q : ℝ} {d : AeroDict ι} (hd : w.aero = some d)
    (h : dynPressure w = (.ok q, w')) : q = d.q * B.Sw ∧ w' = w := by
  unfold dynPressure at h
  split_ifs at h
  · rw [getAero_some hd] at h
    simp only [Prod.mk.injEq, Except.ok.injEq] at h
    exact ⟨by rw [← h.1, dynPress_eq], h.2.symm⟩
  · simp at h

/-- One central difference in an entry of the aero dictionary with the restoring assignment, as in the derivative
functions. -/
theorem central_restore {ps : Option B.π} {f : ℝ → AeroDict ι → AeroDict ι} (hf : KeySetter f) {x0 δ y : ℝ}
    {w w1 w2 : World B} {d : AeroDict ι} {r : Loads × Loads} (hd : w.aero = some d)
    (h : central ps (fun x => setAero (f x)) x0 δ w = (.ok r, w1)) (h2 : setAero (f y) w1 = (.ok (), w2)) :
    (∃ d', w2.aero = some d' ∧ SameEntries B (f y d) d') ∧ w2.ctrl = w.ctrl ∧ w2.files = w.files ∧
    SolvedAt ps (f (x0 + δ) d) w.ctrl r.1 ∧ SolvedAt ps (f (x0 - δ) d) w.ctrl r.2 := by
  obtain ⟨⟨d1, hd1, hs1⟩, hc, hfi, hs⟩ := central_aero hf hd h
  rw [setAero_some hd1] at h2
  simp only [Prod.mk.injEq, true_and] at h2
  subst h2
  refine ⟨⟨_, rfl, ?_⟩, hc, hfi, hs⟩
  have := hf.same hs1 y
  rwa [hf.over] at this

theorem SolvedAt.of_same {ps : Option B.π} {d d' : AeroDict ι} {c : Option CtrlDict} {r : Loads}
    (h : SolvedAt ps d' c r) (hs : SameEntries B d d') : SolvedAt ps d c r := by
  obtain ⟨w, w', d1, h1, h2, h3, h4⟩ := h
  exact ⟨w, w', d1, h1, hs.trans h2, h3, h4⟩

theorem rad_half : rad 0.5 = degree / 2 := by unfold rad degree; ring
theorem rad_quarter : rad 0.25 = degree / 4 := by unfold rad degree; ring
theorem degree_pos : 0 < degree := div_pos Real.pi_pos (by norm_num)

/-- **C42.** If `stability_derivatives` returns, `aero_state` is as before except that `alpha` and `beta` are present (0
if they were absent), `control_state` is unchanged and no file is written; and the derivatives are the central
differences, over ±0.5 degree, of loads that `solve` returned at the perturbed states. -/
theorem C42_stability_derivatives {ps : Option B.π} {w w' : World B} {d : AeroDict ι} {D : StabDeriv}
    (hd : w.aero = some d) (ht : d.truthy = true) (h : stabilityDerivatives ps w = (.ok D, w')) :
    (∃ d', w'.aero = some d' ∧
      SameEntries B { d with alpha := some (d.alpha.getD 0), beta := some (d.beta.getD 0) } d') ∧
    w'.ctrl = w.ctrl ∧ w'.files = w.files ∧
    ∃ aForw aBack bForw bBack : Loads,
      SolvedAt ps { d with alpha := some (d.alpha.getD 0 + 0.5) } w.ctrl aForw ∧
      SolvedAt ps { d with alpha := some (d.alpha.getD 0 - 0.5) } w.ctrl aBack ∧
      SolvedAt ps { d with alpha := some (d.alpha.getD 0), beta := some (d.beta.getD 0 + 0.5) } w.ctrl bForw ∧
      SolvedAt ps { d with alpha := some (d.alpha.getD 0), beta := some (d.beta.getD 0 - 0.5) } w.ctrl bBack ∧
      ReportedDerivative B D.a aForw aBack (0.5 * degree) d.q ∧
      ReportedDerivative B D.b bForw bBack (0.5 * degree) d.q := by
  unfold stabilityDerivatives at h
  rw [get_bind, if_pos (by simp [aeroGiven, hd, ht])] at h
  unfold stabBody at h
  replace h := bind_ok.1 h
  obtain ⟨q, w0, h0, h⟩ := h
  obtain ⟨rfl, rfl⟩ := dynPressure_ok hd h0
  replace h := bind_ok.1 h
  obtain ⟨a0, _, h1, h⟩ := h
  rw [getAero_some hd] at h1
  simp only [Prod.mk.injEq, Except.ok.injEq] at h1
  obtain ⟨rfl, rfl⟩ := h1
  replace h := bind_ok.1 h
  obtain ⟨⟨aF, aB⟩, w1, h1, h⟩ := h
  replace h := bind_ok.1 h
  obtain ⟨_, w2, h2, h⟩ := h
  obtain ⟨⟨d2, hd2, hs2⟩, hc2, hf2, hF, hB⟩ := central_restore keySetter_alpha hd h1 h2
  replace h := bind_ok.1 h
  obtain ⟨b0, _, h3, h⟩ := h
  rw [getAero_some hd2] at h3
  simp only [Prod.mk.injEq, Except.ok.injEq] at h3
  obtain ⟨rfl, rfl⟩ := h3
  replace h := bind_ok.1 h
  obtain ⟨⟨bF, bB⟩, w3, h3, h⟩ := h
  replace h := bind_ok.1 h
  obtain ⟨_, w4, h4, h⟩ := h
  obtain ⟨⟨d4, hd4, hs4⟩, hc4, hf4, hF', hB'⟩ := central_restore keySetter_beta hd2 h3 h4
  simp only [pure_run, Prod.mk.injEq, Except.ok.injEq] at h
  obtain ⟨rfl, rfl⟩ := h
  have hb : d2.beta = d.beta := by
    have := congrArg AeroDict.beta hs2.1
    simpa [AeroDict.sansField] using this
  rw [hc2, hb] at hF' hB'
  have hdeg : rad 0.5 ≠ 0 := by rw [rad_half]; have := degree_pos; positivity
  have hr : (0.5 : ℝ) * degree = rad 0.5 := by unfold rad degree; ring
  refine ⟨⟨d4, hd4, ?_⟩, hc4.trans hc2, hf4.trans hf2, aF, aB, bF, bB, hF, hB, ?_, ?_, ?_, ?_⟩
  · rw [hb] at hs4
    exact (keySetter_beta.same hs2 _).trans hs4
  · exact hF'.of_same (keySetter_beta.same hs2 _)
  · exact hB'.of_same (keySetter_beta.same hs2 _)
  · rw [hr]; exact reported_of hdeg rfl
  · rw [hr]; exact reported_of hdeg rfl

/-- **C42, no state given.** Without an `aero_state` the caller's objects are unchanged and the derivatives are those of
the documented default state. -/
theorem C42_default {ps : Option B.π} {w : World B} (hw : aeroGiven w = false) :
    (stabilityDerivatives ps w).1 =
      (stabilityDerivatives ps { w with aero := some { Vmag := some 10, rho := some 0.0023769, alpha := some 0 } }).1 ∧
    (stabilityDerivatives ps w).2.aero = w.aero := by
  change (stabilityDerivatives ps w).1 = (stabilityDerivatives ps { w with aero := some defaultAeroDict }).1 ∧ _
  have h1 : stabilityDerivatives ps w = (withAero defaultAeroDict (stabBody ps) >>= fun x => pure x.1) w := by
    unfold stabilityDerivatives
    rw [get_bind, if_neg (by simp [hw])]
  have h2 : stabilityDerivatives ps { w with aero := some defaultAeroDict } =
      stabBody ps { w with aero := some defaultAeroDict } := by
    unfold stabilityDerivatives
    rw [get_bind, if_pos (by simp [aeroGiven, AeroDict.truthy, defaultAeroDict])]
  rw [h1, h2, bind_def]
  unfold withAero
  rcases stabBody ps { w with aero := some defaultAeroDict } with ⟨_ | _, _⟩ <;> exact ⟨rfl, rfl⟩

/-- **C43, the part that holds.** If `damping_derivatives` returns, `roll_rate` and `pitch_rate` have the values they had
(0 if absent), all other entries except `yaw_rate` are unchanged; but `yaw_rate` has the value of `pitch_rate`.
The derivatives are central differences in the non-dimensional rates over ±0.005. -/
theorem C43_damping_partial {ps : Option B.π} {w w' : World B} {d : AeroDict ι} {D : DampDeriv}
    (hd : w.aero = some d) (ht : d.truthy = true) (h : dampingDerivatives ps w = (.ok D, w')) :
    (∃ d', w'.aero = some d' ∧
      SameEntries B { d with roll := some (d.roll.getD 0), pitch := some (d.pitch.getD 0), yaw := some (d.pitch.getD 0) }
        d') ∧
    w'.ctrl = w.ctrl ∧ w'.files = w.files ∧
    ∃ pForw pBack qForw qBack rForw rBack : Loads,
      let dp := 0.005 * (2 * d.Vmag.getD 10 / B.lat)
      let dq := 0.005 * (2 * d.Vmag.getD 10 / B.long)
      let d1 := { d with roll := some (d.roll.getD 0) }
      let d2 := { d1 with pitch := some (d.pitch.getD 0) }
      SolvedAt ps { d with roll := some (d.roll.getD 0 + dp) } w.ctrl pForw ∧
      SolvedAt ps { d with roll := some (d.roll.getD 0 - dp) } w.ctrl pBack ∧
      SolvedAt ps { d1 with pitch := some (d.pitch.getD 0 + dq) } w.ctrl qForw ∧
      SolvedAt ps { d1 with pitch := some (d.pitch.getD 0 - dq) } w.ctrl qBack ∧
      SolvedAt ps { d2 with yaw := some (d.yaw.getD 0 + dp) } w.ctrl rForw ∧
      SolvedAt ps { d2 with yaw := some (d.yaw.getD 0 - dp) } w.ctrl rBack ∧
      ReportedDerivative B D.p pForw pBack 0.005 d.q ∧
      ReportedDerivative B D.q qForw qBack 0.005 d.q ∧
      ReportedDerivative B D.r rForw rBack 0.005 d.q := by
  unfold dampingDerivatives at h
  rw [get_bind, if_pos (by simp [aeroGiven, hd, ht])] at h
  unfold dampBody at h
  replace h := bind_ok.1 h
  obtain ⟨V, _, h0, h⟩ := h
  rw [getAero_some hd] at h0
  simp only [Prod.mk.injEq, Except.ok.injEq] at h0
  obtain ⟨rfl, rfl⟩ := h0
  replace h := bind_ok.1 h
  obtain ⟨q, w0, h0, h⟩ := h
  obtain ⟨rfl, rfl⟩ := dynPressure_ok hd h0
  split_ifs at h with hz
  · simp at h
  replace h := bind_ok.1 h
  obtain ⟨a0, _, h1, h⟩ := h
  rw [getAero_some hd] at h1
  simp only [Prod.mk.injEq, Except.ok.injEq] at h1
  obtain ⟨rfl, rfl⟩ := h1
  replace h := bind_ok.1 h
  obtain ⟨⟨aF, aB⟩, w1, h1, h⟩ := h
  replace h := bind_ok.1 h
  obtain ⟨_, w2, h2, h⟩ := h
  obtain ⟨⟨d2, hd2, hs2⟩, hc2, hf2, hF, hB⟩ := central_restore keySetter_roll hd h1 h2
  replace h := bind_ok.1 h
  obtain ⟨b0, _, h3, h⟩ := h
  rw [getAero_some hd2] at h3
  simp only [Prod.mk.injEq, Except.ok.injEq] at h3
  obtain ⟨rfl, rfl⟩ := h3
  replace h := bind_ok.1 h
  obtain ⟨⟨bF, bB⟩, w3, h3, h⟩ := h
  replace h := bind_ok.1 h
  obtain ⟨_, w4, h4, h⟩ := h
  obtain ⟨⟨d4, hd4, hs4⟩, hc4, hf4, hF', hB'⟩ := central_restore keySetter_pitch hd2 h3 h4
  replace h := bind_ok.1 h
  obtain ⟨b0, _, h5, h⟩ := h
  rw [getAero_some hd4] at h5
  simp only [Prod.mk.injEq, Except.ok.injEq] at h5
  obtain ⟨rfl, rfl⟩ := h5
  replace h := bind_ok.1 h
  obtain ⟨⟨cF, cB⟩, w5, h5, h⟩ := h
  replace h := bind_ok.1 h
  obtain ⟨_, w6, h6, h⟩ := h
  obtain ⟨⟨d6, hd6, hs6⟩, hc6, hf6, hF'', hB''⟩ := central_restore keySetter_yaw hd4 h5 h6
  simp only [pure_run, Prod.mk.injEq, Except.ok.injEq] at h
  obtain ⟨rfl, rfl⟩ := h
  have hb : d2.pitch = d.pitch := by
    have := congrArg AeroDict.pitch hs2.1
    simpa [AeroDict.sansField] using this
  have hy : d4.yaw = d.yaw := by
    have e1 := congrArg AeroDict.yaw hs2.1
    have e2 := congrArg AeroDict.yaw hs4.1
    simp only [AeroDict.sansField] at e1 e2
    exact e2.trans e1
  rw [hc2, hb] at hF' hB'
  rw [hc4, hc2, hy] at hF'' hB''
  rw [hb] at hs4 hs6
  have e1 : (0.005 : ℝ) * 2 * d.Vmag.getD 10 / B.lat = 0.005 * (2 * d.Vmag.getD 10 / B.lat) := by ring
  have e2 : (0.005 : ℝ) * 2 * d.Vmag.getD 10 / B.long = 0.005 * (2 * d.Vmag.getD 10 / B.long) := by ring
  rw [e1] at hF hB hF'' hB''
  rw [e2] at hF' hB'
  have hs24 := (keySetter_pitch.same hs2 (d.pitch.getD 0)).trans hs4
  refine ⟨⟨d6, hd6, ?_⟩, hc6.trans (hc4.trans hc2), hf6.trans (hf4.trans hf2), aF, aB, bF, bB, cF, cB, hF, hB,
    ?_, ?_, ?_, ?_, ?_, ?_, ?_⟩
  · exact (keySetter_yaw.same hs24 _).trans hs6
  · exact hF'.of_same (keySetter_pitch.same hs2 _)
  · exact hB'.of_same (keySetter_pitch.same hs2 _)
  · exact hF''.of_same (keySetter_yaw.same hs24 _)
  · exact hB''.of_same (keySetter_yaw.same hs24 _)
  · exact reported_of (by norm_num) rfl
  · exact reported_of (by norm_num) rfl
  · exact reported_of (by norm_num) rfl

/-- One central difference in an entry of the control dictionary with the restoring assignment. -/
theorem central_restore_ctrl {ps : Option B.π} {f : ℝ → CtrlDict → CtrlDict} (over : ∀ x y d, f y (f x d) = f y d)
    {x0 δ y : ℝ} {w w1 w2 : World B} {d d0 : AeroDict ι} {c : CtrlDict} {r : Loads × Loads}
    (hd : w.aero = some d) (hs : SameEntries B d0 d) (hc : w.ctrl = some c)
    (h : central ps (fun x => setCtrl (f x)) x0 δ w = (.ok r, w1)) (h2 : setCtrl (f y) w1 = (.ok (), w2)) :
    (∃ d', w2.aero = some d' ∧ SameEntries B d0 d') ∧ w2.ctrl = some (f y c) ∧ w2.files = w.files ∧
    SolvedAt ps d0 (some (f (x0 + δ) c)) r.1 ∧ SolvedAt ps d0 (some (f (x0 - δ) c)) r.2 := by
  obtain ⟨⟨d1, hd1, hs1⟩, hc1, hfi, hF, hB⟩ := central_ctrl over hd hc h
  rw [setCtrl_some hc1] at h2
  simp only [Prod.mk.injEq, true_and] at h2
  subst h2
  exact ⟨⟨d1, hd1, hs.trans hs1⟩, by rw [over], hfi, hF.of_same hs, hB.of_same hs⟩

/-- **C44.** If `control_derivatives` returns, `control_state` has the deflections it had before (absent ones become 0),
`aero_state` is unchanged (C40 aside), no file is written, and each set of derivatives is the central difference over
±0.25 degree of loads that `solve` returned at the perturbed deflections. -/
theorem C44_control_derivatives {ps : Option B.π} {w w' : World B} {d : AeroDict ι} {c : CtrlDict} {D : ContDeriv}
    (hd : w.aero = some d) (hc : w.ctrl = some c) (ht : c.truthy = true)
    (h : controlDerivatives ps w = (.ok D, w')) :
    (∃ d', w'.aero = some d' ∧ SameEntries B d d') ∧
    w'.ctrl = some { c with aileron := some (c.aileron.getD 0), elevator := some (c.elevator.getD 0),
                            rudder := some (c.rudder.getD 0), flap := some (c.flap.getD 0) } ∧
    w'.files = w.files ∧
    ∃ aF aB eF eB rF rB fF fB : Loads,
      let c1 := { c with aileron := some (c.aileron.getD 0) }
      let c2 := { c1 with elevator := some (c.elevator.getD 0) }
      let c3 := { c2 with rudder := some (c.rudder.getD 0) }
      SolvedAt ps d (some { c with aileron := some (c.aileron.getD 0 + 0.25) }) aF ∧
      SolvedAt ps d (some { c with aileron := some (c.aileron.getD 0 - 0.25) }) aB ∧
      SolvedAt ps d (some { c1 with elevator := some (c.elevator.getD 0 + 0.25) }) eF ∧
      SolvedAt ps d (some { c1 with elevator := some (c.elevator.getD 0 - 0.25) }) eB ∧
      SolvedAt ps d (some { c2 with rudder := some (c.rudder.getD 0 + 0.25) }) rF ∧
      SolvedAt ps d (some { c2 with rudder := some (c.rudder.getD 0 - 0.25) }) rB ∧
      SolvedAt ps d (some { c3 with flap := some (c.flap.getD 0 + 0.25) }) fF ∧
      SolvedAt ps d (some { c3 with flap := some (c.flap.getD 0 - 0.25) }) fB ∧
      ReportedDerivative B D.da aF aB (0.25 * degree) d.q ∧
      ReportedDerivative B D.de eF eB (0.25 * degree) d.q ∧
      ReportedDerivative B D.dr rF rB (0.25 * degree) d.q ∧
      ReportedDerivative B D.df fF fB (0.25 * degree) d.q := by
  unfold controlDerivatives at h
  rw [get_bind, if_pos (by simp [ctrlGiven, hc, ht])] at h
  unfold contBody at h
  replace h := bind_ok.1 h
  obtain ⟨q, w0, h0, h⟩ := h
  obtain ⟨rfl, rfl⟩ := dynPressure_ok hd h0
  -- aileron
  replace h := bind_ok.1 h
  obtain ⟨a0, _, h1, h⟩ := h
  rw [getCtrl_some hc] at h1
  simp only [Prod.mk.injEq, Except.ok.injEq] at h1
  obtain ⟨rfl, rfl⟩ := h1
  replace h := bind_ok.1 h
  obtain ⟨⟨aF, aB⟩, w1, h1, h⟩ := h
  replace h := bind_ok.1 h
  obtain ⟨_, w2, h2, h⟩ := h
  obtain ⟨⟨d2, hd2, hs2⟩, hc2, hf2, haF, haB⟩ :=
    central_restore_ctrl (f := fun x d => { d with aileron := some x }) (fun _ _ _ => rfl) hd (SameEntries.refl _) hc h1 h2
  -- elevator
  replace h := bind_ok.1 h
  obtain ⟨b0, _, h3, h⟩ := h
  rw [getCtrl_some hc2] at h3
  simp only [Prod.mk.injEq, Except.ok.injEq] at h3
  obtain ⟨rfl, rfl⟩ := h3
  replace h := bind_ok.1 h
  obtain ⟨⟨eF, eB⟩, w3, h3, h⟩ := h
  replace h := bind_ok.1 h
  obtain ⟨_, w4, h4, h⟩ := h
  obtain ⟨⟨d4, hd4, hs4⟩, hc4, hf4, heF, heB⟩ := central_restore_ctrl (f := fun x d => { d with elevator := some x }) (fun _ _ _ => rfl) hd2 hs2 hc2 h3 h4
  -- rudder
  replace h := bind_ok.1 h
  obtain ⟨b0, _, h5, h⟩ := h
  rw [getCtrl_some hc4] at h5
  simp only [Prod.mk.injEq, Except.ok.injEq] at h5
  obtain ⟨rfl, rfl⟩ := h5
  replace h := bind_ok.1 h
  obtain ⟨⟨rF, rB⟩, w5, h5, h⟩ := h
  replace h := bind_ok.1 h
  obtain ⟨_, w6, h6, h⟩ := h
  obtain ⟨⟨d6, hd6, hs6⟩, hc6, hf6, hrF, hrB⟩ := central_restore_ctrl (f := fun x d => { d with rudder := some x }) (fun _ _ _ => rfl) hd4 hs4 hc4 h5 h6
  -- flap
  replace h := bind_ok.1 h
  obtain ⟨b0, _, h7, h⟩ := h
  rw [getCtrl_some hc6] at h7
  simp only [Prod.mk.injEq, Except.ok.injEq] at h7
  obtain ⟨rfl, rfl⟩ := h7
  replace h := bind_ok.1 h
  obtain ⟨⟨fF, fB⟩, w7, h7, h⟩ := h
  replace h := bind_ok.1 h
  obtain ⟨_, w8, h8, h⟩ := h
  obtain ⟨⟨d8, hd8, hs8⟩, hc8, hf8, hfF, hfB⟩ := central_restore_ctrl (f := fun x d => { d with flap := some x }) (fun _ _ _ => rfl) hd6 hs6 hc6 h7 h8
  simp only [pure_run, Prod.mk.injEq, Except.ok.injEq] at h
  obtain ⟨rfl, rfl⟩ := h
  have hdeg : rad 0.25 ≠ 0 := by rw [rad_quarter]; have := degree_pos; positivity
  have hr : (0.25 : ℝ) * degree = rad 0.25 := by unfold rad degree; ring
  refine ⟨⟨d8, hd8, hs8⟩, hc8, hf8.trans (hf6.trans (hf4.trans hf2)), aF, aB, eF, eB, rF, rB, fF, fB,
    haF, haB, heF, heB, hrF, hrB, hfF, hfB, ?_, ?_, ?_, ?_⟩ <;> (rw [hr]; exact reported_of hdeg rfl)

end Verif
