import Verif.Spec.LLConditions
import Verif.Thm.LLEquation
import Verif.Thm.LLSections
import Verif.Thm.LLKernel
import Verif.Thm.Grid

/-!
# A solve uses the flight condition and the controls it is given (C104)
-/

set_option linter.unusedSectionVars false

namespace Verif
open V3

variable {ι : Type*} [Fintype ι] [DecidableEq ι]

open Classical in
theorem isWind_of {V α β : ℝ} {w : V3} (h : freestream V α β = some w) : IsWind V α β w := by
  refine ⟨((C23_freestream V α β).2 w h).1, ?_⟩
  unfold freestream at h
  simp only at h
  split_ifs at h with h0
  cases h
  simp only [rad, mul_div_assoc] at h0 ⊢
  refine ⟨V / Real.sqrt (1 - Real.sin (α * (Real.pi / 180)) * Real.sin (α * (Real.pi / 180)) *
    Real.sin (β * (Real.pi / 180)) * Real.sin (β * (Real.pi / 180))), ?_, ?_⟩
  · rw [div_mul_eq_mul_div]
    exact div_nonneg (mul_self_nonneg V) (Real.sqrt_nonneg _)
  · ext <;> simp

open Classical in
theorem isDirection_of {w u : V3} (h : normalise w = some u) : IsDirection w u := by
  unfold normalise at h
  split_ifs at h with h0
  cases h
  have hp : 0 < nrm w := lt_of_le_of_ne (nrm_nonneg w) (Ne.symm h0)
  refine ⟨nrm w, hp, ?_, ?_⟩
  · unfold unit; rw [smul_smul, mul_one_div_cancel h0, one_smul]
  · unfold unit; rw [nrm_smul, abs_of_pos (by positivity)]; field_simp

theorem IsDirection.smul {w u : V3} {k : ℝ} (hk : 0 < k) (h : IsDirection (k • w) u) : IsDirection w u := by
  obtain ⟨m, hm, h1, h2⟩ := h
  refine ⟨k⁻¹ * m, by positivity, ?_, h2⟩
  rw [← smul_smul, ← h1, smul_smul, inv_mul_cancel₀ hk.ne', one_smul]

theorem rotArr_some {G : LLGeom ι} {d : AeroDict ι} {b : Option (ι → V3)} {v : ι → V3} (h : rotArr G d b = some v) :
    ∃ b', b = some b' ∧
      ∀ i, v i + cross ⟨d.roll.getD 0, d.pitch.getD 0, d.yaw.getD 0⟩ ((G.S i).rcp - G.cg) = b' i := by
  unfold rotArr at h
  by_cases hr : d.hasRates = true
  · rw [if_pos hr] at h
    rcases b with _ | b
    · cases h
    · simp only [Option.map_some, Option.some.injEq] at h
      exact ⟨b, rfl, fun i => by rw [← h]; exact sub_add_cancel _ _⟩
  · rw [if_neg hr] at h
    refine ⟨v, h, fun i => ?_⟩
    simp only [AeroDict.hasRates, Bool.or_eq_true, not_or, Bool.not_eq_true, Option.isSome_eq_false_iff, Option.isNone_iff_eq_none] at hr
    obtain ⟨⟨h1, h2⟩, h3⟩ := hr
    rw [h1, h2, h3]
    ext <;> simp [cross]

theorem flowOf {G : LLGeom ι} {d : AeroDict ι} {a : Arr ι} {v : ι → V3} {u : V3} (h : arrOf G d = .ok a) (hv : a.v = some v)
    (hu : a.u = some u) : FlowOf G d v u a.rho := by
  unfold arrOf at h
  constructor
  · intro ls hl
    rw [hl] at h
    simp only [Except.ok.injEq] at h
    subst h
    simp only at hv hu ⊢
    obtain ⟨b, hb, hv⟩ := rotArr_some hv
    cases hb
    refine ⟨fun i => ⟨trivial, hv i⟩, fun V hV => ?_, fun hV => ?_⟩
    · rw [hV] at hu
      obtain ⟨w, hw, hu⟩ := Option.bind_eq_some_iff.1 hu
      exact ⟨w, isWind_of hw, isDirection_of hu⟩
    · rw [hV] at hu
      obtain ⟨w, hw, hu⟩ := Option.bind_eq_some_iff.1 hu
      unfold meanV at hw
      split_ifs at hw with hc
      cases hw
      exact (isDirection_of hu).smul (by positivity)
  · intro hl
    rw [hl] at h
    simp only at h
    split at h
    · rename_i V r hV hr
      simp only [Except.ok.injEq] at h
      subst h
      simp only at hv hu
      obtain ⟨w, hw, hu⟩ := Option.bind_eq_some_iff.1 hu
      obtain ⟨b, hb, hv⟩ := rotArr_some hv
      rw [hw] at hb
      cases hb
      exact ⟨V, r, w, hV, hr, isWind_of hw, isDirection_of hu, fun i => ⟨rfl, hv i⟩⟩
    · cases h

open Classical in
theorem controlsOf (G : LLGeom ι) (c : CtrlDict) : ControlsOf G c (ctrlOf G c) := by
  intro i
  have e : (ctrlOf G c).delta i = c.deflects (G.S i) * (Real.pi / 180) := by
    simp only [ctrlOf, CtrlDict.deflects]; ring
  refine ⟨e, ?_⟩
  have e2 : (ctrlOf G c).eff i = deflEff ((ctrlOf G c).delta i) := rfl
  have hpi := Real.pi_pos
  have e3 : |(ctrlOf G c).delta i| * 180 / Real.pi = |c.deflects (G.S i)| := by
    rw [e, abs_mul, abs_of_pos (by positivity : 0 < Real.pi / 180)]
    field_simp
  rw [e2]
  unfold deflEff
  simp only [e3]
  constructor
  · intro h; rw [if_neg (by linarith)]
  · intro h; rw [if_pos h]; norm_num; ring

/-- **C104.** In every successful solve with an aero state and a control state, whatever was solved before: the circulation solves
the lifting-line equation for the flow and the control positions that the two dictionaries describe, and the reported section
coefficients and forces are those for this flow and these positions. -/
theorem C104_inputs (G : LLGeom ι) (st st' : LLState ι) (stype : String) (d : AeroDict ι) (c : CtrlDict) (R : Sol ι)
    (hd : d.truthy = true) (hc : c.truthy = true) (h : llSolve G st stype (some d) (some c) = (.ok R, st')) :
    ∃ v u rho C, FlowOf G d v u rho ∧ ControlsOf G c C ∧ LiftingLine G.S v u C R.gamma ∧
      ∀ i, R.cd i = (G.S i).drag (R.alpha i) (C.delta i) ∧ R.cm i = (G.S i).pitchingMoment (R.alpha i) (C.delta i) ∧
        R.force i = (rho i * R.gamma i) • cross (R.vi i) ((G.S i).r2 - (G.S i).r1) ∧
        nrm (R.vi i) • R.fpar i = (rho i * nrm (v i) ^ 2 / 2 * R.cd i * (G.S i).area) • R.vi i ∧
        R.moment i = (-(rho i * nrm (v i) ^ 2 / 2 * R.cm i * (G.S i).ic2)) • (G.S i).us +
          cross ((G.S i).rcp - G.cg) (R.force i) := by
  obtain ⟨a, ha, h1, h2, h3⟩ := llSolve_arr hd h
  obtain ⟨v, u, hv, hu, hL, -⟩ := C32_lifting_line G st st' stype d (some c) R hd h
  obtain ⟨v', u', hv', hu', hs, -⟩ := C83_sections G st st' stype (some d) (some c) R h
  rw [hv] at hv'; rw [hu] at hu'
  cases hv'; cases hu'
  have hC : st'.ctrl = ctrlOf G c := by
    have := llSolve_ctrl G st stype d c hd hc a ha
    rw [h] at this
    exact this
  refine ⟨v, u, st'.rho, st'.ctrl, ?_, ?_, hL, fun i => ?_⟩
  · rw [h3]
    exact flowOf ha (h1 ▸ hv) (h2 ▸ hu)
  · rw [hC]; exact controlsOf G c
  · obtain ⟨-, -, k3, k4, k5, k6, k7⟩ := hs i
    exact ⟨k3, k4, k5, k6, k7⟩

/-- **C104, conversely.** Without `local_state`, a solve without airspeed or density is rejected. -/
theorem C104_rejected (G : LLGeom ι) (st : LLState ι) (stype : String) (d : AeroDict ι) (c : Option CtrlDict) (hd : d.truthy = true)
    (hl : d.localState = none) (hm : d.Vmag = none ∨ d.rho = none) : llSolve G st stype (some d) c = (.error .runtime, st) := by
  have := processAero_explicit G st d hd
  have ha : arrOf G d = .error .runtime := by
    unfold arrOf
    rw [hl]
    rcases hm with hm | hm <;> rw [hm]
    rcases d.Vmag <;> rfl
  rw [ha] at this
  simp only at this
  unfold llSolve
  rw [this]

/-- **C104, the controls of an aircraft.** On every aircraft built through the API, a section deflects by what the control surface of
its segment is declared to do if the surface covers the section, otherwise not at all. -/
theorem C104_aircraft {nm : String} {pos : Option V3} {ops : List PlaneOp} {co : Bool} {g : Grid}
    (hg : mkGrid (built nm pos ops) co = .ok g) {k : ℕ} {s : Seg} {i : ℕ} {x : GridSec}
    (hx : SectionOf (built nm pos ops) g k s i x) (c : CtrlDict) :
    (Covered s x → c.deflects x.toSection = s.cs.deflection s.side c) ∧ (¬ Covered s x → c.deflects x.toSection = 0) := by
  obtain ⟨h1, h2⟩ := section_flap hg k s i x hx
  constructor
  · intro h
    have := (h2 h).1
    simp only [CtrlSurf.mixFor, Prod.mk.injEq] at this
    obtain ⟨a1, a2, a3, a4⟩ := this
    have e : c.deflects x.toSection = x.mixA * c.aileron.getD 0 + x.mixE * c.elevator.getD 0 + x.mixR * c.rudder.getD 0 +
      x.mixF * c.flap.getD 0 := rfl
    rw [e, a1, a2, a3, a4]
    unfold CtrlSurf.deflection
    cases s.side <;> cases s.cs.aileron <;> cases s.cs.rudder <;> simp <;> ring
  · intro h
    obtain ⟨a1, a2, a3, a4, -⟩ := h1 h
    have e : c.deflects x.toSection = x.mixA * c.aileron.getD 0 + x.mixE * c.elevator.getD 0 + x.mixR * c.rudder.getD 0 +
      x.mixF * c.flap.getD 0 := rfl
    rw [e, a1, a2, a3, a4]; ring

/-- the hypotheses are met: the example wing with a deflected flap -/
example : ∃ (R : Sol (Fin 2)) (st' : LLState (Fin 2)),
    llSolve exGeom (LLState.init _) "linear" (some exAero) (some exCtrl0) = (.ok R, st') ∧ exAero.truthy = true ∧
      exCtrl0.truthy = true ∧ exCtrl0.deflects (exGeom.S 0) ≠ 0 := by
  refine ⟨_, _, Prod.ext (ex0_solve _) rfl, exAero_truthy, exCtrl0_truthy, ?_⟩
  have h := (controlsOf exGeom exCtrl0 0).1
  rw [ex0_ctrl] at h
  intro h0
  rw [h0] at h
  norm_num [exC0] at h

/-- 20 degrees cost a bit less than a tenth -/
example : KeepsEffect 20 0.9215384615384656 := by
  constructor
  · intro h; norm_num at h
  · intro _; norm_num

end Verif
