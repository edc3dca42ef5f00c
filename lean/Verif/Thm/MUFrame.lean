import Verif.Lemmas.MUFrame
import Verif.Examples.FlatDerivs

/-!
# What happens to the caller's dictionaries (C40, C43, C45, C48)

The general theorems hold for arbitrary solvers; the counterexamples use the model of the actual lifting-line solver.
-/

namespace Verif
open Act

variable {ι : Type} {B : Backend ι}

/-- **C40, the part that holds.** `solve` changes no entry of `control_state`, and no entry of `aero_state` other than
`local_state`; if the plane does not have both wings and propellers, it changes nothing at all.  No file is written. -/
theorem C40_solve_frame_partial (ps : Option B.π) (w : World B) :
    (muSolve ps w).2.ctrl = w.ctrl ∧
    (muSolve ps w).2.aero.map AeroDict.sansField = w.aero.map AeroDict.sansField ∧
    ((B.hasProps && B.hasWings) = false → (muSolve ps w).2.aero = w.aero) ∧
    (muSolve ps w).2.files = w.files :=
  ⟨keeps_muSolve_ctrl ps w, keeps_muSolve_sans ps w, fun h => keeps_muSolve_aero h ps w, keeps_muSolve_files ps w⟩

/-- **C40 fails.** Whenever the propeller solver hands out a velocity field, `solve` stores it in the caller's
`aero_state`. -/
theorem C40_field_stored {ps : Option B.π} {w : World B} {d : AeroDict ι} (hd : w.aero = some d) (ht : d.truthy = true)
    (hP : B.hasProps = true) {r : PropTotals} {f : ι → ℝ × V3} {st' : B.σ}
    (hs : B.propSolve d ps w.st = (.ok (r, some f), st')) :
    (muSolve ps w).2.aero = some { d with localState := some f } := by
  have hg : aeroGiven w = true := by simp [aeroGiven, hd, ht]
  have h1 : solveProps ps d w = (.ok (some r), { w with st := st', aero := some { d with localState := some f } }) := by
    have h2 : onSolver (B.propSolve d ps) w = (.ok (r, some f), { w with st := st' }) := by
      unfold onSolver; rw [hs]
    unfold solveProps
    rw [if_pos hP, bind_of_ok h2]
    have h3 : setAero (B := B) (fun d => { d with localState := some f }) { w with st := st' } =
        (.ok (), { w with st := st', aero := some { d with localState := some f } }) := by
      unfold setAero
      simp only [hd]
    dsimp only
    rw [bind_of_ok h3]
    rfl
  have h4 : Keeps World.aero (do
      let wing ← (solveWings : Act (World B) _)
      Act.change fun w => { w with objs := w.objs ++ [totalOf (some r) wing] }
      return (wing, some r, totalOf (some r) wing)) := by
    refine Keeps.bind ?_ fun wg => Keeps.bind (Keeps.change fun w => rfl) fun _ => Keeps.pure _
    unfold solveWings
    refine Keeps.ite ?_ (Keeps.pure _)
    exact Keeps.bind Keeps.get fun w => Keeps.bind (keeps_onSolver fun _ _ => rfl) fun _ => Keeps.pure _
  have h5 : (solveParts ps w).2.aero = some { d with localState := some f } := by
    unfold solveParts
    rw [bind_of_ok (show getAero id w = (.ok d, w) by unfold getAero; rw [hd]; rfl), bind_of_ok h1]
    exact h4 _
  unfold muSolve
  rw [get_bind, if_pos hg, bind_def]
  rcases hh : solveParts ps w with ⟨_ | ⟨a, b, c⟩, w'⟩ <;> rw [hh] at h5 <;> exact h5

/-! ### C45 -/

/-- aero entries as observations -/
theorem friendly_aero {γ : Type} {g : AeroDict ι → γ} (hg : ∀ d f, g { d with localState := f } = g d) :
    Friendly (fun w : World B => w.aero.map g) where
  st := fun _ _ => rfl
  objs := fun _ _ => rfl
  field := fun w d f h => by simp [h, hg]
  swapA := fun _ _ _ _ => rfl
  swapC := fun _ _ _ h => h.symm

theorem friendly_ctrl' {γ : Type} (g : CtrlDict → γ) : Friendly (fun w : World B => w.ctrl.map g) where
  st := fun _ _ => rfl
  objs := fun _ _ => rfl
  field := fun _ _ _ _ => rfl
  swapA := fun _ _ _ h => h.symm
  swapC := fun _ _ _ _ => rfl

/-- **C45, the part that holds.** Whether they return or raise, the analyses change nothing in the caller's dictionaries
but the entries they perturb (and `local_state`, C40): `alpha` and `beta` for the stability derivatives, the rotation rates for the damping
derivatives, the four deflections for the control derivatives, `alpha` and `elevator` for `pitch_trim`, `alpha` for `stall_onset`; `target_lift` and
`stall_airspeed` change nothing at all. -/
theorem C45_frame_partial (ps : Option B.π) (w : World B) :
    ((stabilityDerivatives ps w).2.aero.map AeroDict.sansAngles = w.aero.map AeroDict.sansAngles ∧
      (stabilityDerivatives ps w).2.ctrl = w.ctrl) ∧
    ((dampingDerivatives ps w).2.aero.map AeroDict.sansRates = w.aero.map AeroDict.sansRates ∧
      (dampingDerivatives ps w).2.ctrl = w.ctrl) ∧
    ((controlDerivatives ps w).2.aero.map AeroDict.sansField = w.aero.map AeroDict.sansField ∧
      (controlDerivatives ps w).2.ctrl.map CtrlDict.other = w.ctrl.map CtrlDict.other) ∧
    (∀ L M error filename,
      (pitchTrim ps L M error filename w).2.aero.map AeroDict.sansAlpha = w.aero.map AeroDict.sansAlpha ∧
      (pitchTrim ps L M error filename w).2.ctrl.map CtrlDict.sansElevator = w.ctrl.map CtrlDict.sansElevator) ∧
    (∀ fuel,
      (stallOnset ps fuel w).2.aero.map AeroDict.sansAlpha = w.aero.map AeroDict.sansAlpha ∧
      (stallOnset ps fuel w).2.ctrl = w.ctrl) ∧
    (∀ L error filename,
      (targetLift ps L error filename w).2.aero = w.aero ∧ (targetLift ps L error filename w).2.ctrl = w.ctrl) ∧
    (∀ weight error filename fuel sweep,
      (stallAirspeed ps weight error filename fuel sweep w).2.aero = w.aero ∧
      (stallAirspeed ps weight error filename fuel sweep w).2.ctrl = w.ctrl) := by
  have hA : ∀ {γ : Type} {g : AeroDict ι → γ} {f : AeroDict ι → AeroDict ι}, (∀ d, g (f d) = g d) →
      Keeps (fun w : World B => w.aero.map g) (setAero f) := by
    intro γ g f h
    exact keeps_setAero fun w d hd => by simp [hd, h]
  have hC : ∀ {γ : Type} {g : CtrlDict → γ} {f : CtrlDict → CtrlDict}, (∀ d, g (f d) = g d) →
      Keeps (fun w : World B => w.ctrl.map g) (setCtrl f) := by
    intro γ g f h
    exact keeps_setCtrl fun w d hd => by simp [hd, h]
  have hAC : ∀ {γ : Type} {g : CtrlDict → γ} {f : AeroDict ι → AeroDict ι},
      Keeps (fun w : World B => w.ctrl.map g) (setAero f) := fun {_ _ _} => keeps_setAero fun _ _ _ => rfl
  have hAC' : ∀ {f : AeroDict ι → AeroDict ι}, Keeps (World.ctrl : World B → _) (setAero f) :=
    fun {_} => keeps_setAero fun _ _ _ => rfl
  have hCA : ∀ {γ : Type} {g : AeroDict ι → γ} {f : CtrlDict → CtrlDict},
      Keeps (fun w : World B => w.aero.map g) (setCtrl f) := fun {_ _ _} => keeps_setCtrl fun _ _ _ => rfl
  refine ⟨⟨?_, ?_⟩, ⟨?_, ?_⟩, ⟨?_, ?_⟩, fun L M error filename => ⟨?_, ?_⟩, fun fuel => ⟨?_, ?_⟩,
    fun L error filename => ⟨keeps_targetLift_aero w, keeps_targetLift_ctrl w⟩,
    fun _ _ _ _ _ => ⟨keeps_stallAirspeed_aero w, keeps_stallAirspeed_ctrl w⟩⟩
  · exact (friendly_aero fun _ _ => rfl).stab (fun _ => hA fun _ => rfl) (fun _ => hA fun _ => rfl) w
  · exact friendly_ctrl.stab (fun _ => hAC') (fun _ => hAC') w
  · exact (friendly_aero fun _ _ => rfl).damp (fun _ => hA fun _ => rfl) (fun _ => hA fun _ => rfl)
      (fun _ => hA fun _ => rfl) w
  · exact friendly_ctrl.damp (fun _ => hAC') (fun _ => hAC') (fun _ => hAC') w
  · exact (friendly_aero fun _ _ => rfl).cont (fun _ => hCA) (fun _ => hCA) (fun _ => hCA) (fun _ => hCA) w
  · exact (friendly_ctrl' _).cont (fun _ => hC fun _ => rfl) (fun _ => hC fun _ => rfl) (fun _ => hC fun _ => rfl)
      (fun _ => hC fun _ => rfl) w
  · exact (friendly_aero fun _ _ => rfl).pitchTrim (fun _ => hA fun _ => rfl) (fun _ => hCA)
      (fun _ => keeps_writeFile (fun _ _ => rfl) _ _) _ _ _ w
  · exact (friendly_ctrl' _).pitchTrim (fun _ => hAC) (fun _ => hC fun _ => rfl)
      (fun _ => keeps_writeFile (fun _ _ => rfl) _ _) _ _ _ w
  · exact (friendly_aero fun _ _ => rfl).stallOnset (fun _ => hA fun _ => rfl) _ w
  · exact friendly_ctrl.stallOnset (fun _ => hAC') _ w

/-- a state without an airspeed cannot be solved -/
theorem flat_raises {ps : Option Unit} {w : World flatB} {d : AeroDict (Fin 2)} (hd : w.aero = some d)
    (ht : d.truthy = true) (hV : d.Vmag = none) (hl : d.localState = none) :
    muSolve (B := flatB) ps w = (.error .runtime, w) := by
  rw [wings_muSolve hd ht]
  have : llSolve flatGeom w.st "linear" (some d) w.ctrl = (.error .runtime, w.st) := by
    unfold llSolve processAero
    simp only [ht, hV, hl]
    rfl
  rw [this]

/-- a state with an angle of attack but no airspeed -/
noncomputable def noSpeed : AeroDict (Fin 2) := { alpha := some 2, roll := some 1 }

/-- the flat wing given `noSpeed` and an elevator deflection of 3 degrees -/
noncomputable def noSpeedWorld : World flatB := freshWorld flatGeom 2 2 1 (some noSpeed) (some { elevator := some 3 })

/-- **C45 fails.** `aero_state` lacks `V_mag`, so the solver raises `RuntimeError`; `stability_derivatives` has then changed
the caller's `alpha` from 2 to 1.5, `damping_derivatives` the roll rate, `control_derivatives` has added an aileron
deflection, and `pitch_trim` has replaced `alpha` and `elevator` by 0. -/
theorem C45_refuted :
    ((stabilityDerivatives none noSpeedWorld).1 = .error .runtime ∧
      (stabilityDerivatives none noSpeedWorld).2.aero = some { noSpeed with alpha := some 1.5 }) ∧
    ((dampingDerivatives none noSpeedWorld).1 = .error .runtime ∧
      (dampingDerivatives none noSpeedWorld).2.aero = some { noSpeed with roll := some 0.95 }) ∧
    ((controlDerivatives none noSpeedWorld).1 = .error .runtime ∧
      (controlDerivatives none noSpeedWorld).2.ctrl = some { elevator := some 3, aileron := some (-0.25) }) ∧
    ((pitchTrim none 1 0 1 none noSpeedWorld).1 = .error .runtime ∧
      (pitchTrim none 1 0 1 none noSpeedWorld).2.aero = some { noSpeed with alpha := some 0 } ∧
      (pitchTrim none 1 0 1 none noSpeedWorld).2.ctrl = some { elevator := some 0 }) := by
  have hd : noSpeedWorld.aero = some noSpeed := rfl
  have hc : noSpeedWorld.ctrl = some { elevator := some 3 } := rfl
  have ht : noSpeed.truthy = true := by simp [noSpeed, AeroDict.truthy]
  have hg : aeroGiven noSpeedWorld = true := by simp [aeroGiven, hd, ht]
  have hgc : ctrlGiven noSpeedWorld = true := by simp [ctrlGiven, hc, CtrlDict.truthy]
  refine ⟨?_, ?_, ?_, ?_⟩
  · have e1 : central none setAlpha (noSpeed.alpha.getD 0) 0.5 noSpeedWorld =
        (.error .runtime, { noSpeedWorld with aero := some { noSpeed with alpha := some (noSpeed.alpha.getD 0 - 0.5) } }) := by
      unfold central
      rw [bind_of_ok (show setAlpha _ _ = _ from setAero_some hd)]
      exact bind_of_error (flat_raises
        (w := { noSpeedWorld with aero := some { noSpeed with alpha := some (noSpeed.alpha.getD 0 - 0.5) } })
        (d := { noSpeed with alpha := some (noSpeed.alpha.getD 0 - 0.5) }) rfl
        (by simp [AeroDict.truthy]) rfl rfl) _
    have : stabilityDerivatives none noSpeedWorld =
        (.error .runtime, { noSpeedWorld with aero := some { noSpeed with alpha := some (noSpeed.alpha.getD 0 - 0.5) } }) := by
      unfold stabilityDerivatives
      rw [get_bind, if_pos hg]
      unfold stabBody
      rw [bind_of_ok (dynPressure_returns rfl hd)]
      simp only
      rw [bind_of_ok (getAero_some hd), bind_of_error e1]
    rw [this]
    refine ⟨rfl, ?_⟩
    simp [noSpeed]
    norm_num
  · have e1 : central none setRoll (noSpeed.roll.getD 0) (0.005 * 2 * noSpeed.Vmag.getD 10 / flatB.lat) noSpeedWorld =
        (.error .runtime, { noSpeedWorld with aero := some { noSpeed with roll := some (noSpeed.roll.getD 0 -
          0.005 * 2 * noSpeed.Vmag.getD 10 / flatB.lat) } }) := by
      unfold central
      rw [bind_of_ok (show setRoll _ _ = _ from setAero_some hd)]
      exact bind_of_error (flat_raises
        (w := { noSpeedWorld with aero := some { noSpeed with roll := some (noSpeed.roll.getD 0 -
          0.005 * 2 * noSpeed.Vmag.getD 10 / flatB.lat) } })
        (d := { noSpeed with roll := some (noSpeed.roll.getD 0 - 0.005 * 2 * noSpeed.Vmag.getD 10 / flatB.lat) }) rfl
        (by simp [AeroDict.truthy]) rfl rfl) _
    have : dampingDerivatives none noSpeedWorld =
        (.error .runtime, { noSpeedWorld with aero := some { noSpeed with roll := some (noSpeed.roll.getD 0 -
          0.005 * 2 * noSpeed.Vmag.getD 10 / flatB.lat) } }) := by
      unfold dampingDerivatives
      rw [get_bind, if_pos hg]
      unfold dampBody
      rw [bind_of_ok (getAero_some hd), bind_of_ok (dynPressure_returns rfl hd),
        if_neg (by norm_num [wingsBackend])]
      simp only
      rw [bind_of_ok (getAero_some hd), bind_of_error e1]
    rw [this]
    refine ⟨rfl, ?_⟩
    simp [noSpeed, wingsBackend]
    norm_num
  · have e1 : central none setAileron 0 0.25 noSpeedWorld =
        (.error .runtime, { noSpeedWorld with ctrl := some { elevator := some 3, aileron := some (0 - 0.25) } }) := by
      unfold central
      rw [bind_of_ok (show setAileron _ _ = _ from setCtrl_some hc)]
      exact bind_of_error (flat_raises
        (w := { noSpeedWorld with ctrl := some { elevator := some 3, aileron := some (0 - 0.25) } }) hd ht rfl rfl) _
    have : controlDerivatives none noSpeedWorld =
        (.error .runtime, { noSpeedWorld with ctrl := some { elevator := some 3, aileron := some (0 - 0.25) } }) := by
      unfold controlDerivatives
      rw [get_bind, if_pos hgc]
      unfold contBody
      rw [bind_of_ok (dynPressure_returns rfl hd)]
      simp only
      rw [bind_of_ok (getCtrl_some hc)]
      simp only [Option.getD_none]
      rw [bind_of_error e1]
    rw [this]
    refine ⟨rfl, ?_⟩
    simp
  · have : pitchTrim none 1 0 1 none noSpeedWorld =
        (.error .runtime, { noSpeedWorld with aero := some { noSpeed with alpha := some 0 }
                                              ctrl := some { elevator := some 0 } }) := by
      unfold pitchTrim
      rw [get_bind, if_pos hg, if_pos hgc]
      unfold trimLoop
      rw [bind_of_ok (show setAlpha _ _ = _ from setAero_some hd)]
      rw [bind_of_ok (show setElevator _ _ = _ from setCtrl_some
        (w := { noSpeedWorld with aero := some { noSpeed with alpha := some 0 } }) hc)]
      exact bind_of_error (flat_raises (w := { noSpeedWorld with aero := some { noSpeed with alpha := some 0 }, ctrl := some { elevator := some 0 } })
        (d := { noSpeed with alpha := some 0 }) rfl (by simp [AeroDict.truthy]) rfl rfl) _
    rw [this]
    exact ⟨rfl, rfl, rfl⟩

/-! ### C43 -/

/-- the flat wing with a pitch rate of 1 and a yaw rate of 2 -/
noncomputable def ratesWorld : World flatB := freshWorld flatGeom 2 2 1 (some flatAero) none

/-- **C43 fails.** `damping_derivatives` returns for the flat wing, and the caller's yaw rate has become 1, the value of
the pitch rate, instead of 2. -/
theorem C43_refuted : ∃ D w', dampingDerivatives (B := flatB) none ratesWorld = (.ok D, w') ∧
    ratesWorld.aero = some { Vmag := some 10, rho := some 1, roll := some 0, pitch := some 1, yaw := some 2 } ∧
    w'.aero = some { Vmag := some 10, rho := some 1, roll := some 0, pitch := some 1, yaw := some 1 } := by
  obtain ⟨D, w', h⟩ := flatAero_damp none (w := ratesWorld) rfl
  refine ⟨D, w', h, rfl, ?_⟩
  obtain ⟨⟨d', hd', hs⟩, _⟩ := C43_damping_partial (d := flatAero) rfl flatAero_truthy h
  rw [hd', hs.2 rfl]
  rfl

/-- C42 applies to the flat wing: `stability_derivatives` returns, and the derivatives are numbers. -/
example : ∃ D w', stabilityDerivatives (B := flatB) none ratesWorld = (.ok D, w') ∧ D.a ≠ none ∧ D.b ≠ none := by
  obtain ⟨D, w', h⟩ := stab_returns (B := flatB) (w := ratesWorld) rfl rfl (flat_solvesAll none) (d := flatAero) rfl
    flatAero_truthy
    ⟨rfl, rfl, rfl, by simp [flatAero]; norm_num [abs_le], by simp [flatAero], by simp [flatAero]; norm_num⟩
    ⟨rfl, rfl, rfl, by simp [flatAero]; norm_num [abs_le], by simp [flatAero], by simp [flatAero]; norm_num⟩
    ⟨rfl, rfl, rfl, by simp [flatAero], by simp [flatAero]; norm_num [abs_le], by simp [flatAero]; norm_num⟩
    ⟨rfl, rfl, rfl, by simp [flatAero], by simp [flatAero]; norm_num [abs_le], by simp [flatAero]; norm_num⟩
  obtain ⟨_, _, _, aF, aB, bF, bB, _, _, _, _, ha, hb⟩ := C42_stability_derivatives (d := flatAero) rfl flatAero_truthy h
  refine ⟨D, w', h, fun h0 => ?_, fun h0 => ?_⟩
  · have := ha.2.1 h0
    norm_num [AeroDict.q, flatAero, wingsBackend] at this
  · have := hb.2.1 h0
    norm_num [AeroDict.q, flatAero, wingsBackend] at this

/-- C44 applies to the flat wing. -/
example : ∃ D w', controlDerivatives (B := flatB) none { ratesWorld with ctrl := some { aileron := some 2 } } =
    (.ok D, w') ∧ D.da ≠ none := by
  obtain ⟨D, w', h⟩ := cont_returns (B := flatB) (w := { ratesWorld with ctrl := some { aileron := some 2 } }) rfl rfl
    (flat_solvesAll none) (d := flatAero) (c := { aileron := some 2 }) rfl rfl (by simp [CtrlDict.truthy])
    ⟨rfl, rfl, rfl, by simp [flatAero], by simp [flatAero], by simp [flatAero]; norm_num⟩
  obtain ⟨_, _, _, aF, aB, eF, eB, rF, rB, fF, fB, _, _, _, _, _, _, _, _, ha, _⟩ :=
    C44_control_derivatives (w := { ratesWorld with ctrl := some { aileron := some 2 } }) (d := flatAero)
      (c := { aileron := some 2 }) rfl rfl (by simp [CtrlDict.truthy]) h
  refine ⟨D, w', h, fun h0 => ?_⟩
  have := ha.2.1 h0
  norm_num [AeroDict.q, flatAero, wingsBackend] at this

end Verif
