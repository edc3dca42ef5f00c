import Verif.Lemmas.LLApi
import Mathlib.LinearAlgebra.Matrix.Determinant.Basic
import Mathlib.Tactic.NormNum
import Mathlib.Analysis.Real.Pi.Bounds

/-!
# A concrete configuration

A straight wing of two sections, used to show that the hypotheses of the lifting-line theorems are met by a
non-trivial case: the solve succeeds and produces a non-zero force.
-/

namespace Verif
open V3

/-- airfoil of the example -/
noncomputable def exAf : AfCoef := ⟨6, -1/20, -1/10, -1/20, 1/100, 0, 1/100⟩

/-- section of the example: `y0` is the left corner -/
noncomputable def exSec (y0 mixA : ℝ) (name : String) : Section where
  name := name
  sp := 1 / 2
  rcp := ⟨0, y0 + 1 / 2, 0⟩
  r1 := ⟨0, y0, 0⟩
  r2 := ⟨0, y0 + 1, 0⟩
  chord := 1
  twist := 0
  dihedral := 0
  sweep := 0
  area := 1
  cla := 6
  al0 := -1 / 20
  clMax := 7 / 5
  left := exAf
  right := exAf
  ua := ⟨-1, 0, 0⟩
  un := ⟨0, 0, -1⟩
  us := ⟨0, -1, 0⟩
  flapEff := 1 / 2
  cmd := -1 / 2
  ic2 := 1
  mixA := mixA
  mixE := 1
  mixR := 0
  mixF := 0

/-- two sections, one on each side -/
noncomputable def exGeom : LLGeom (Fin 2) where
  cg := ⟨1, 0, 0⟩
  S := ![exSec (-1) (-1) "left_w", exSec 0 1 "right_w"]

/-- level flight at 10 per second -/
noncomputable def exAero : AeroDict (Fin 2) := { Vmag := some 10, rho := some 1 }
/-- elevator neutral (a non-empty dictionary) -/
noncomputable def exCtrl : CtrlDict := { elevator := some 0 }

theorem exAero_truthy : exAero.truthy = true := by simp [AeroDict.truthy, exAero]
theorem exCtrl_truthy : exCtrl.truthy = true := by simp [CtrlDict.truthy, exCtrl]

theorem nrm_y (r : ℝ) : nrm ⟨0, r, 0⟩ = |r| := by
  simp [nrm, dot, Real.sqrt_mul_self_eq_abs]
theorem nrm_x (r : ℝ) : nrm ⟨r, 0, 0⟩ = |r| := by
  simp [nrm, dot, Real.sqrt_mul_self_eq_abs]
theorem nrm_z (r : ℝ) : nrm ⟨0, 0, r⟩ = |r| := by
  simp [nrm, dot, Real.sqrt_mul_self_eq_abs]

noncomputable def exFlow : Flow (Fin 2) := ⟨fun _ => ⟨-10, 0, 0⟩, ⟨-1, 0, 0⟩, fun _ => 1⟩
noncomputable def exC : Ctrl (Fin 2) := ⟨fun _ => 0, fun _ => 1⟩

theorem ex_freestream : freestream 10 0 0 = some ⟨-10, 0, 0⟩ := by
  simp [freestream, rad]

theorem ex_normalise : normalise ⟨-10, 0, 0⟩ = some ⟨-1, 0, 0⟩ := by
  have : nrm ⟨-10, 0, 0⟩ = 10 := by rw [nrm_x]; norm_num
  unfold normalise unit
  rw [this, if_neg (by norm_num)]
  congr 1
  ext <;> simp

theorem ex_arr : arrOf exGeom exAero = .ok ⟨some exFlow.v, some exFlow.u, exFlow.rho⟩ := by
  simp [arrOf, exAero, rotArr, AeroDict.hasRates, ex_freestream, ex_normalise, exFlow]

theorem ex_ctrl : ctrlOf exGeom exCtrl = exC := by
  simp [ctrlOf, exCtrl, exC, deflEff]
  funext i; rw [if_neg (by norm_num)]

theorem ex_trail (r : ℝ) : trailTerm ⟨-1, 0, 0⟩ ⟨0, r, 0⟩ = ⟨0, 0, -(1 / r)⟩ := by
  unfold trailTerm
  rw [nrm_y]
  by_cases h : r = 0
  · subst h; ext <;> simp
  · ext <;> simp [dot]
    field_simp

theorem ex_bound (a b : ℝ) : boundTerm ⟨0, a, 0⟩ ⟨0, b, 0⟩ = 0 := by
  unfold boundTerm
  have : cross (⟨0, a, 0⟩ : V3) ⟨0, b, 0⟩ = 0 := by ext <;> simp
  rw [this]; simp

theorem ex_vji : ∀ i j : Fin 2, vji exGeom.S exFlow.u i j = ⟨0, 0, if i = j then 1 / Real.pi else -(1 / (3 * Real.pi))⟩ := by
  have hsub : ∀ a b : ℝ, ((⟨0, a, 0⟩ : V3) - ⟨0, b, 0⟩) = ⟨0, a - b, 0⟩ := by
    intro a b; ext <;> simp
  have hpi := Real.pi_ne_zero
  intro i j
  fin_cases i <;> fin_cases j <;>
    simp only [vji, exGeom, exSec, exFlow, Fin.zero_eta, Fin.mk_one, Matrix.cons_val_zero, Matrix.cons_val_one,
      hsub, ex_trail, ex_bound] <;> ext <;> norm_num <;> field_simp

theorem ex_defined : InfluenceDefined exGeom.S exFlow.u ∧ RhsDefined exGeom.S exFlow := by
  have hsub : ∀ a b : ℝ, ((⟨0, a, 0⟩ : V3) - ⟨0, b, 0⟩) = ⟨0, a - b, 0⟩ := by
    intro a b; ext <;> simp
  constructor
  · unfold InfluenceDefined
    simp only [Fin.forall_fin_two, exGeom, exSec, exFlow, Matrix.cons_val_zero, Matrix.cons_val_one, hsub, nrm_y, dot]
    norm_num
  · intro i
    fin_cases i <;> simp [exGeom, exSec, exFlow, dot]

theorem ex_aMat : aMat exGeom.S exFlow = !![60 / Real.pi + 20, -(20 / Real.pi); -(20 / Real.pi), 60 / Real.pi + 20] := by
  have hpi := Real.pi_ne_zero
  have h1 : nrm (⟨-10, 0, 0⟩ : V3) = 10 := by rw [nrm_x]; norm_num
  have h2 : ∀ i, cross (⟨-10, 0, 0⟩ : V3) (dl (exGeom.S i)) = ⟨0, 0, -10⟩ := by
    intro i
    fin_cases i <;> ext <;> simp [dl, exGeom, exSec]
  have h3 : nrm (⟨0, 0, -10⟩ : V3) = 10 := by rw [nrm_z]; norm_num
  have ha : ∀ i, (exGeom.S i).area = 1 := by intro i; fin_cases i <;> rfl
  have hc : ∀ i, (exGeom.S i).cla = 6 := by intro i; fin_cases i <;> rfl
  have hn : ∀ i, (exGeom.S i).un = ⟨0, 0, -1⟩ := by intro i; fin_cases i <;> rfl
  ext i j
  simp only [aMat, ex_vji, ha, hc, hn]
  have hv : exFlow.v i = ⟨-10, 0, 0⟩ := rfl
  rw [hv, h1, h2, h3]
  fin_cases i <;> fin_cases j <;> simp [dot] <;> field_simp <;> ring

theorem ex_det : (aMat exGeom.S exFlow).det ≠ 0 := by
  have hpi := Real.pi_pos
  rw [ex_aMat, Matrix.det_fin_two_of]
  have h : 0 < 20 / Real.pi := by positivity
  have : 60 / Real.pi = 3 * (20 / Real.pi) := by ring
  rw [this]
  nlinarith

/-- vortex strength of the example -/
noncomputable def exGamma : ℝ := 30 / (40 / Real.pi + 20)
theorem exGamma_pos : 0 < exGamma := by unfold exGamma; have := Real.pi_pos; positivity

theorem ex_bVec : bVec exGeom.S exFlow exC = fun _ => 30 := by
  have h1 : nrm (⟨-10, 0, 0⟩ : V3) = 10 := by rw [nrm_x]; norm_num
  funext i
  have hv : exFlow.v i = ⟨-10, 0, 0⟩ := rfl
  simp only [bVec, clRhs, alphaLoc, effFlap, hv, h1]
  fin_cases i <;> simp [exGeom, exSec, exAf, exC, dot, lerp] <;> norm_num

theorem ex_gamma : (aMat exGeom.S exFlow)⁻¹.mulVec (bVec exGeom.S exFlow exC) = fun _ => exGamma := by
  have hpi := Real.pi_pos
  have h : (aMat exGeom.S exFlow).mulVec (fun _ => exGamma) = bVec exGeom.S exFlow exC := by
    rw [ex_aMat, ex_bVec]
    have hne : 40 / Real.pi + 20 ≠ 0 := by positivity
    funext i
    fin_cases i <;> simp [Matrix.mulVec, dotProduct, Fin.sum_univ_two, exGamma] <;> field_simp <;> ring
  rw [← h, Matrix.mulVec_mulVec, Matrix.nonsing_inv_mul _ (isUnit_iff_ne_zero.mpr ex_det), Matrix.one_mulVec]

theorem ex_vInd (i : Fin 2) : vInd exGeom.S exFlow (fun _ => exGamma) i = ⟨-10, 0, exGamma * (2 / (3 * Real.pi))⟩ := by
  have hpi := Real.pi_ne_zero
  have hv : exFlow.v i = ⟨-10, 0, 0⟩ := rfl
  simp only [vInd, ex_vji, hv, Fin.sum_univ_two]
  fin_cases i <;> ext <;> simp <;> field_simp <;> norm_num

theorem ex_wind : WindAxesDefined exFlow.u := by
  have h1 : cross exFlow.u ey = ⟨0, 0, -1⟩ := by ext <;> simp [exFlow, ey]
  have h2 : nrm (cross exFlow.u ey) = 1 := by rw [h1, nrm_z]; norm_num
  have h3 : liftAxis exFlow.u = ⟨0, 0, -1⟩ := by
    unfold liftAxis unit; rw [h2, h1]; ext <;> simp
  have h4 : cross (liftAxis exFlow.u) exFlow.u = ⟨0, 1, 0⟩ := by rw [h3]; ext <;> simp [exFlow]
  refine ⟨by rw [h2]; norm_num, ?_⟩
  rw [h4, nrm_y]; norm_num

theorem ex_post : PostDefined exFlow (vInd exGeom.S exFlow (fun _ => exGamma)) := by
  refine ⟨fun i h => ?_, ex_wind⟩
  rw [ex_vInd, nrm_eq_zero] at h
  have := congrArg V3.x h
  simp at this

/-- the solution of the example -/
noncomputable def exSol : Sol (Fin 2) := solOf exGeom.cg exGeom.S exFlow exC (fun _ => exGamma)

theorem ex_solveLinear : solveLinear exGeom.cg exGeom.S exFlow exC = .ok exSol := by
  unfold solveLinear
  rw [if_neg (not_not.mpr ex_defined), if_neg ex_det]
  have h := ex_post
  rw [← ex_gamma] at h
  simp only
  rw [if_neg (not_not.mpr h), ex_gamma]
  rfl

/-- The example solve succeeds, whatever was solved before. -/
theorem ex_solve (st : LLState (Fin 2)) : (llSolve exGeom st "linear" (some exAero) (some exCtrl)).1 = .ok exSol := by
  rw [llSolve_explicit _ _ _ _ exAero_truthy exCtrl_truthy, ex_arr, ex_ctrl]
  have h : solveLinear exGeom.cg exGeom.S ⟨exFlow.v, exFlow.u, exFlow.rho⟩ exC = .ok exSol := ex_solveLinear
  simp only [kern, h]

/-- ... and the lift is not zero. -/
theorem ex_FZ : exSol.inviscid.FZ = -(20 * exGamma) := by
  have : exSol.inviscid.FZ = (∑ i, secForce exGeom.S exFlow (fun _ => exGamma)
    (vInd exGeom.S exFlow (fun _ => exGamma)) i).z := rfl
  rw [this, Fin.sum_univ_two]
  simp only [secForce, ex_vInd]
  simp [exFlow, exGeom, exSec, dl]
  ring

theorem ex_FX : exSol.total.FX < 0 := by
  have hg := exGamma_pos
  have hpi := Real.pi_pos
  have h : exSol.total.FX = (∑ i, secForce exGeom.S exFlow (fun _ => exGamma) (vInd exGeom.S exFlow (fun _ => exGamma)) i).x +
      (∑ i, secDrag exGeom.S exFlow exC (vInd exGeom.S exFlow (fun _ => exGamma)) i).x := rfl
  have h1 : ∀ i, (secForce exGeom.S exFlow (fun _ => exGamma) (vInd exGeom.S exFlow (fun _ => exGamma)) i).x < 0 := by
    intro i
    simp only [secForce, ex_vInd]
    fin_cases i <;> simp [exFlow, exGeom, exSec, dl] <;> positivity
  have h2 : ∀ i, (secDrag exGeom.S exFlow exC (vInd exGeom.S exFlow (fun _ => exGamma)) i).x ≤ 0 := by
    intro i
    have hcd : ∀ al, 0 ≤ secCd exGeom.S exC al i := by
      intro al
      have : secCd exGeom.S exC al i = 1/100 + 1/100 * secCl exGeom.S al i ^ 2 := by
        unfold secCd
        fin_cases i <;> simp [exGeom, exSec, exAf, exC, lerp] <;> ring
      rw [this]; positivity
    have ha : (exGeom.S i).area = 1 := by fin_cases i <;> rfl
    simp only [secDrag, ex_vInd, V3.smul_x, ha]
    have := hcd (alphas exGeom.S (vInd exGeom.S exFlow (fun _ => exGamma)))
    have hn : 0 ≤ nrm (⟨-10, 0, exGamma * (2 / (3 * Real.pi))⟩ : V3) := Real.sqrt_nonneg _
    have hr : exFlow.rho i = 1 := rfl
    have hv : 0 ≤ nrm (exFlow.v i) := Real.sqrt_nonneg _
    rw [hr]
    apply mul_nonpos_of_nonneg_of_nonpos
    · positivity
    · have := one_div_nonneg.2 hn
      nlinarith
  rw [h, Fin.sum_univ_two, Fin.sum_univ_two]
  have := h1 0; have := h1 1; have := h2 0; have := h2 1
  simp only [V3.add_x]
  linarith

/-- The example in one statement: an explicit aero state for which the solve succeeds with a non-zero force. -/
theorem ex_nontrivial : exAero.truthy = true ∧
    ∃ R, (llSolve exGeom (LLState.init _) "linear" (some exAero) (some exCtrl)).1 = .ok R ∧ R.inviscid.FZ ≠ 0 :=
  ⟨exAero_truthy, exSol, ex_solve _, by rw [ex_FZ]; have := exGamma_pos; intro h; linarith⟩

/-! ### the same wing with its flap deflected so that the lift vanishes -/

/-- elevator up (about -5.7 degrees) so that the cambered wing of the example makes no lift -/
noncomputable def exCtrl0 : CtrlDict := { elevator := some (-18 / Real.pi) }
noncomputable def exC0 : Ctrl (Fin 2) := ⟨fun _ => -1 / 10, fun _ => 1⟩

theorem exCtrl0_truthy : exCtrl0.truthy = true := by simp [CtrlDict.truthy, exCtrl0]

theorem ex0_ctrl : ctrlOf exGeom exCtrl0 = exC0 := by
  have hpi := Real.pi_ne_zero
  have hd : ∀ i : Fin 2, ((0:ℝ) * (exGeom.S i).mixA + -18 / Real.pi * (exGeom.S i).mixE + 0 * (exGeom.S i).mixR +
      0 * (exGeom.S i).mixF) * Real.pi / 180 = -1 / 10 := by
    intro i
    have : (exGeom.S i).mixE = 1 := by fin_cases i <;> rfl
    rw [this]; field_simp; norm_num
  have he : deflEff (-1 / 10) = 1 := by
    unfold deflEff
    have : |(-1 / 10 : ℝ)| * 180 / Real.pi ≤ 11 := by
      rw [show |(-1 / 10 : ℝ)| = 1 / 10 by rw [abs_of_neg (by norm_num)]; norm_num]
      have := Real.pi_gt_three
      rw [div_le_iff₀ (by linarith)]; linarith
    simp only [gt_iff_lt, not_lt.mpr this, if_false]
  simp only [ctrlOf, exCtrl0, exC0, Option.getD_none, Option.getD_some, hd, he]

theorem ex0_bVec : bVec exGeom.S exFlow exC0 = 0 := by
  funext i
  have hv : exFlow.v i = ⟨-10, 0, 0⟩ := rfl
  simp only [bVec, clRhs, alphaLoc, effFlap, hv]
  fin_cases i <;> simp [exGeom, exSec, exAf, exC0, dot, lerp] <;> norm_num

noncomputable def ex0Sol : Sol (Fin 2) := solOf exGeom.cg exGeom.S exFlow exC0 0

theorem ex0_solveLinear : solveLinear exGeom.cg exGeom.S exFlow exC0 = .ok ex0Sol := by
  unfold solveLinear
  rw [if_neg (not_not.mpr ex_defined), if_neg ex_det, ex0_bVec, Matrix.mulVec_zero]
  have h : PostDefined exFlow (vInd exGeom.S exFlow 0) := by
    refine ⟨fun i h => ?_, ex_wind⟩
    have hv : vInd exGeom.S exFlow 0 i = ⟨-10, 0, 0⟩ := by simp [vInd, exFlow]
    rw [hv, nrm_x] at h
    norm_num at h
  simp only
  rw [if_neg (not_not.mpr h)]
  rfl

theorem ex0_kern : kern exGeom ⟨some exFlow.v, some exFlow.u, exFlow.rho⟩ exC0 = .ok ex0Sol := by
  have h : solveLinear exGeom.cg exGeom.S ⟨exFlow.v, exFlow.u, exFlow.rho⟩ exC0 = .ok ex0Sol := ex0_solveLinear
  simp only [kern, h]

theorem ex0_solve (st : LLState (Fin 2)) :
    (llSolve exGeom st "linear" (some exAero) (some exCtrl0)).1 = .ok ex0Sol := by
  rw [llSolve_explicit _ _ _ _ exAero_truthy exCtrl0_truthy, ex_arr, ex0_ctrl]
  exact ex0_kern

end Verif
