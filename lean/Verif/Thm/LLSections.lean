import Verif.Lemmas.LLKernel
import Verif.Spec.LLSections
import Verif.Examples.LL
import Mathlib.Analysis.SpecialFunctions.Complex.Arg

/-!
# Section coefficients and totals (C83, C84)
-/

set_option linter.unusedSectionVars false

namespace Verif
open V3

variable {ι : Type*} [Fintype ι] [DecidableEq ι]

theorem lerp_eq_mix (s : Section) (f : AfCoef → ℝ) : lerp s.sp (f s.left) (f s.right) = s.mix f := by
  unfold lerp Section.mix; ring

theorem arctan2_spec (y x : ℝ) : -Real.pi < arctan2 y x ∧ arctan2 y x ≤ Real.pi ∧
    ∃ r : ℝ, 0 ≤ r ∧ x = r * Real.cos (arctan2 y x) ∧ y = r * Real.sin (arctan2 y x) := by
  unfold arctan2
  refine ⟨Complex.neg_pi_lt_arg _, Complex.arg_le_pi _, ‖(⟨x, y⟩ : ℂ)‖, norm_nonneg _, ?_, ?_⟩
  · exact (Complex.norm_mul_cos_arg ⟨x, y⟩).symm
  · exact (Complex.norm_mul_sin_arg ⟨x, y⟩).symm

theorem arctan2_eq_arctan {y x : ℝ} (hx : 0 < x) : arctan2 y x = Real.arctan (y / x) := by
  unfold arctan2
  rw [Complex.arg_of_re_nonneg hx.le, Real.arctan_eq_arcsin]
  congr 1
  have h1 : ‖(⟨x, y⟩ : ℂ)‖ = x * Real.sqrt (1 + (y / x) ^ 2) := by
    rw [Complex.norm_eq_sqrt_sq_add_sq, show (x ^ 2 + y ^ 2) = x ^ 2 * (1 + (y / x) ^ 2) by field_simp,
      Real.sqrt_mul (sq_nonneg x), Real.sqrt_sq hx.le]
  rw [h1]
  have : 0 < Real.sqrt (1 + (y / x) ^ 2) := Real.sqrt_pos.2 (by positivity)
  field_simp

/-- **C83.** In every successful solve, at every section: the incidence is the angle of the local velocity; the reported
section coefficients are those of the segment's two airfoils at that incidence, the drag with the flap penalty; the
inviscid force is `ρΓ v×dl`, the viscous force is `½ρV²·cd·dS` along the local velocity, the moment is that of the
coefficient `cm` about the spanwise axis plus the moment of the inviscid force about the centre of gravity.  The inviscid
and viscous results are the sums over the sections and the total results the sums of the two. -/
theorem C83_sections (G : LLGeom ι) (st st' : LLState ι) (stype : String) (a : Option (AeroDict ι))
    (c : Option CtrlDict) (R : Sol ι) (h : llSolve G st stype a c = (.ok R, st')) :
    ∃ v u, st'.v = some v ∧ st'.u = some u ∧
    (∀ i, IsIncidence (G.S i) (R.vi i) (R.alpha i) ∧
      R.cl i = (G.S i).lift (R.alpha i) ∧
      R.cd i = (G.S i).drag (R.alpha i) (st'.ctrl.delta i) ∧
      R.cm i = (G.S i).pitchingMoment (R.alpha i) (st'.ctrl.delta i) ∧
      R.force i = (st'.rho i * R.gamma i) • cross (R.vi i) ((G.S i).r2 - (G.S i).r1) ∧
      nrm (R.vi i) • R.fpar i = (st'.rho i * nrm (v i) ^ 2 / 2 * R.cd i * (G.S i).area) • R.vi i ∧
      R.moment i = (-(st'.rho i * nrm (v i) ^ 2 / 2 * R.cm i * (G.S i).ic2)) • (G.S i).us +
        cross ((G.S i).rcp - G.cg) (R.force i)) ∧
    (R.inviscid.FX = ∑ i, (R.force i).x ∧ R.inviscid.FY = ∑ i, (R.force i).y ∧ R.inviscid.FZ = ∑ i, (R.force i).z ∧
      R.inviscid.MX = ∑ i, (R.moment i).x ∧ R.inviscid.MY = ∑ i, (R.moment i).y ∧
      R.inviscid.MZ = ∑ i, (R.moment i).z) ∧
    (R.viscous.FX = ∑ i, (R.fpar i).x ∧ R.viscous.FY = ∑ i, (R.fpar i).y ∧ R.viscous.FZ = ∑ i, (R.fpar i).z ∧
      R.viscous.MX = ∑ i, (cross ((G.S i).rcp - G.cg) (R.fpar i)).x ∧
      R.viscous.MY = ∑ i, (cross ((G.S i).rcp - G.cg) (R.fpar i)).y ∧
      R.viscous.MZ = ∑ i, (cross ((G.S i).rcp - G.cg) (R.fpar i)).z) ∧
    (∀ f ∈ [Loads.FL, Loads.FD, Loads.FS, Loads.FX, Loads.FY, Loads.FZ, Loads.MX, Loads.MY, Loads.MZ],
      f R.total = f R.inviscid + f R.viscous) ∧
    (∀ q, R.LD = some q ↔ R.total.FD ≠ 0 ∧ q * R.total.FD = R.total.FL) := by
  obtain ⟨v, u, hv, hu, hs, -, -⟩ := llSolve_ok h
  obtain ⟨-, -, -, hpost, -, hR⟩ := solveLinear_ok hs
  refine ⟨v, u, hv, hu, fun i => ⟨?_, ?_, ?_, ?_, ?_, ?_, ?_⟩, ?_, ?_, ?_, ?_⟩
  · have e : R.alpha i = arctan2 (dot (R.vi i) (G.S i).un) (dot (R.vi i) (G.S i).ua) := by rw [hR]; rfl
    rw [e]
    exact arctan2_spec _ _
  · have e : R.cl i = secCl G.S R.alpha i := by rw [hR]; rfl
    rw [e]
    exact lerp_eq_mix (G.S i) fun a => a.cla * (R.alpha i - a.al0)
  · have e : R.cd i = secCd G.S st'.ctrl R.alpha i := by rw [hR]; rfl
    have e2 : secCl G.S R.alpha i = (G.S i).lift (R.alpha i) :=
      lerp_eq_mix (G.S i) fun a => a.cla * (R.alpha i - a.al0)
    rw [e]
    simp only [secCd, Section.drag, Section.polar, e2]
    rw [← lerp_eq_mix]
    simp only [lerp]
    ring
  · have e : R.cm i = secCm G.S st'.ctrl R.alpha i := by rw [hR]; rfl
    rw [e]
    simp only [secCm, Section.pitchingMoment]
    rw [← lerp_eq_mix]
    simp only [lerp]
    ring
  · rw [hR]; rfl
  · have e : R.fpar i = (0.5 * st'.rho i * nrm (v i) * nrm (v i) * R.cd i * (G.S i).area) •
      ((1 / nrm (R.vi i)) • R.vi i) := by rw [hR]; rfl
    have hn : nrm (R.vi i) ≠ 0 := by
      have := hpost.1 i
      rw [hR]; exact this
    rw [e, smul_smul, smul_smul]
    congr 1
    field_simp
    ring
  · have e : R.moment i = (-(dynP ⟨v, u, st'.rho⟩ i) * R.cm i * (G.S i).ic2) • (G.S i).us +
        cross ((G.S i).rcp - G.cg) (R.force i) := by rw [hR]; rfl
    rw [e]
    congr 2
    simp only [dynP]
    ring
  · have e : R.inviscid = mkLoads u (∑ i, R.force i) (∑ i, R.moment i) := by rw [hR]; rfl
    rw [e]
    simp [mkLoads, sum_x, sum_y, sum_z]
  · have e : R.viscous = mkLoads u (∑ i, R.fpar i) (∑ i, cross ((G.S i).rcp - G.cg) (R.fpar i)) := by rw [hR]; rfl
    rw [e]
    simp [mkLoads, sum_x, sum_y, sum_z]
  · have e : R.total = R.inviscid.add R.viscous := by rw [hR]; rfl
    rw [e]
    simp [Loads.add]
  · intro q
    have e : R.LD = open Classical in if R.total.FD = 0 then none else some (R.total.FL / R.total.FD) := by rw [hR]; rfl
    rw [e]
    by_cases h0 : R.total.FD = 0
    · simp [h0]
    · simp only [h0, if_false, Option.some.injEq, ne_eq, not_false_eq_true, true_and]
      rw [div_eq_iff h0]
      exact eq_comm

-- the example wing with a deflected flap: non-zero forces and a drag penalty
example : ∃ (R : Sol (Fin 2)) (st' : LLState (Fin 2)),
    llSolve exGeom (LLState.init _) "linear" (some exAero) (some exCtrl0) = (.ok R, st') ∧ st'.ctrl.delta 0 ≠ 0 := by
  have hcs := llSolve_ctrl exGeom (LLState.init (Fin 2)) "linear" exAero exCtrl0 exAero_truthy exCtrl0_truthy _ ex_arr
  refine ⟨_, _, Prod.ext (ex0_solve _) rfl, ?_⟩
  rw [hcs, ex0_ctrl]
  norm_num [exC0]

/-- **C84, the part that holds.** If no section carries circulation and no section has an effective flap deflection, every
reported section lift coefficient is zero (the flow coming from the front). -/
theorem C84_no_lift_no_cl_partial (G : LLGeom ι) (st st' : LLState ι) (stype : String) (a : Option (AeroDict ι))
    (c : Option CtrlDict) (R : Sol ι) (h : llSolve G st stype a c = (.ok R, st'))
    (hγ : ∀ i, R.gamma i = 0) (hflap : ∀ i, (G.S i).flapEff * st'.ctrl.eff i * st'.ctrl.delta i = 0)
    (v : ι → V3) (hv : st'.v = some v) (hfront : ∀ i, 0 < dot (v i) (G.S i).ua) (harea : ∀ i, (G.S i).area ≠ 0) (i : ι) :
    R.cl i = 0 := by
  obtain ⟨v', u, hv', hu, hs, -, -⟩ := llSolve_ok h
  rw [hv] at hv'; cases hv'
  obtain ⟨-, -, -, -, hg, hR⟩ := solveLinear_ok hs
  have hg0 : R.gamma = 0 := funext hγ
  have hb : bVec G.S ⟨v, u, st'.rho⟩ st'.ctrl i = 0 := by rw [← hg, hg0, Matrix.mulVec_zero]; rfl
  have hvi : R.vi = v := by
    rw [hR, hg0]; funext i; simp [solOf, vInd]
  have hal : R.alpha i = alphaLoc G.S ⟨v, u, st'.rho⟩ i := by
    have e : R.alpha i = arctan2 (dot (R.vi i) (G.S i).un) (dot (R.vi i) (G.S i).ua) := by rw [hR]; rfl
    rw [e, hvi, arctan2_eq_arctan (hfront i)]
    rfl
  have e : R.cl i = secCl G.S R.alpha i := by rw [hR]; rfl
  have hcl : clRhs G.S ⟨v, u, st'.rho⟩ st'.ctrl i = R.cl i := by
    rw [e]
    simp only [clRhs, secCl, effFlap, hflap, hal]
    congr 1 <;> ring
  rw [← hcl]
  unfold bVec at hb
  have hn : nrm (v i) ≠ 0 := by
    intro h0
    have := hfront i
    rw [(nrm_eq_zero).1 h0] at this
    simp [dot] at this
  rcases mul_eq_zero.1 hb with h1 | h1
  · rcases mul_eq_zero.1 h1 with h2 | h2
    · exact absurd (mul_self_eq_zero.1 h2) hn
    · exact absurd h2 (harea i)
  · exact h1

/-- the example wing with symmetric airfoils -/
noncomputable def exSymGeom : LLGeom (Fin 2) where
  cg := exGeom.cg
  S := fun i => { exGeom.S i with left := { exAf with al0 := 0 }, right := { exAf with al0 := 0 }, al0 := 0 }

theorem exSym_solve (st : LLState (Fin 2)) : (llSolve exSymGeom st "linear" (some exAero) (some exCtrl)).1 =
    .ok (solOf exSymGeom.cg exSymGeom.S exFlow exC 0) := by
  have hA : arrOf exSymGeom exAero = .ok ⟨some exFlow.v, some exFlow.u, exFlow.rho⟩ := ex_arr
  have hC : ctrlOf exSymGeom exCtrl = exC := ex_ctrl
  rw [llSolve_explicit _ _ _ _ exAero_truthy exCtrl_truthy, hA, hC]
  have hb : bVec exSymGeom.S exFlow exC = 0 := by
    funext i
    have hv : exFlow.v i = ⟨-10, 0, 0⟩ := rfl
    simp only [bVec, clRhs, alphaLoc, effFlap, hv]
    fin_cases i <;> simp [exSymGeom, exGeom, exSec, exAf, exC, dot, lerp]
  have hp : PostDefined exFlow (vInd exSymGeom.S exFlow 0) := by
    refine ⟨fun i h => ?_, ex_wind⟩
    have hv : vInd exSymGeom.S exFlow 0 i = ⟨-10, 0, 0⟩ := by simp [vInd, exFlow]
    rw [hv, nrm_x] at h
    norm_num at h
  have hd : InfluenceDefined exSymGeom.S exFlow.u ∧ RhsDefined exSymGeom.S exFlow := ex_defined
  have h : solveLinear exSymGeom.cg exSymGeom.S exFlow exC = .ok (solOf exSymGeom.cg exSymGeom.S exFlow exC 0) := by
    unfold solveLinear
    rw [if_neg (not_not.mpr hd), if_neg (show (aMat exSymGeom.S exFlow).det ≠ 0 from ex_det), hb, Matrix.mulVec_zero]
    simp only
    rw [if_neg (not_not.mpr hp)]
  have h' : solveLinear exSymGeom.cg exSymGeom.S ⟨exFlow.v, exFlow.u, exFlow.rho⟩ exC =
      .ok (solOf exSymGeom.cg exSymGeom.S exFlow exC 0) := h
  simp only [kern, h']

-- a wing with lifting airfoils at zero incidence
example : ∃ (R : Sol (Fin 2)) (st' : LLState (Fin 2)) (v : Fin 2 → V3),
    llSolve exSymGeom (LLState.init _) "linear" (some exAero) (some exCtrl) = (.ok R, st') ∧
    (∀ i, R.gamma i = 0) ∧ (∀ i, (exSymGeom.S i).flapEff * st'.ctrl.eff i * st'.ctrl.delta i = 0) ∧
    st'.v = some v ∧ (∀ i, 0 < dot (v i) (exSymGeom.S i).ua) ∧ (∀ i, (exSymGeom.S i).area ≠ 0) ∧
    ∀ i, (exSymGeom.S i).left.cla ≠ 0 := by
  have hA : arrOf exSymGeom exAero = .ok ⟨some exFlow.v, some exFlow.u, exFlow.rho⟩ := ex_arr
  obtain ⟨hv, -, -⟩ := llSolve_state exSymGeom (LLState.init (Fin 2)) "linear" exAero (some exCtrl) exAero_truthy _ hA
  have hcs := llSolve_ctrl exSymGeom (LLState.init (Fin 2)) "linear" exAero exCtrl exAero_truthy exCtrl_truthy _ hA
  refine ⟨_, _, _, Prod.ext (exSym_solve _) rfl, fun i => rfl, fun i => ?_, hv, fun i => ?_, fun i => ?_, fun i => ?_⟩
  · rw [hcs, show ctrlOf exSymGeom exCtrl = exC from ex_ctrl]
    simp [exC]
  · have hv : exFlow.v i = ⟨-10, 0, 0⟩ := rfl
    rw [hv]
    fin_cases i <;> simp [exSymGeom, exGeom, exSec, dot]
  · fin_cases i <;> simp [exSymGeom, exGeom, exSec]
  · fin_cases i <;> simp [exSymGeom, exAf]

/-- **C84 fails.** The flap of the cambered wing cancels its lift: no circulation, no inviscid force; but every section is
reported with the lift coefficient of the undeflected airfoil, which is not zero. -/
theorem C84_refuted : ∃ (R : Sol (Fin 2)) (st' : LLState (Fin 2)),
    llSolve exGeom (LLState.init _) "linear" (some exAero) (some exCtrl0) = (.ok R, st') ∧
    (∀ i, R.gamma i = 0) ∧ (∀ i, R.force i = 0) ∧ ∀ i, R.cl i ≠ 0 := by
  refine ⟨_, _, Prod.ext (ex0_solve _) rfl, fun i => rfl, fun i => by simp [ex0Sol, solOf, secForce], fun i => ?_⟩
  have hvi : vInd exGeom.S exFlow 0 i = ⟨-10, 0, 0⟩ := by simp [vInd, exFlow]
  have hal : alphas exGeom.S (vInd exGeom.S exFlow 0) i = 0 := by
    unfold alphas
    rw [hvi]
    have h1 : dot ⟨-10, 0, 0⟩ (exGeom.S i).un = 0 := by fin_cases i <;> simp [exGeom, exSec, dot]
    have h2 : dot ⟨-10, 0, 0⟩ (exGeom.S i).ua = 10 := by fin_cases i <;> simp [exGeom, exSec, dot]
    rw [h1, h2, arctan2_eq_arctan (by norm_num)]
    simp
  have : ex0Sol.cl i = secCl exGeom.S (alphas exGeom.S (vInd exGeom.S exFlow 0)) i := rfl
  rw [this]
  unfold secCl
  rw [hal]
  fin_cases i <;> simp [exGeom, exSec, exAf, lerp]

end Verif
