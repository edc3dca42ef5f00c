import Verif.Lemmas.LLKernel
import Verif.Thm.BiotSavart
import Verif.Examples.LL

/-!
# The circulation and the section forces of a successful solve (C32, C33, C34)
-/

namespace Verif
open V3

variable {ι : Type*} [Fintype ι] [DecidableEq ι]

/-- the matrix of the code is the lifting-line operator -/
theorem aMat_eq_lhs (S : ι → Section) (F : Flow ι) (hu : nrm F.u = 1) (hd : InfluenceDefined S F.u) (γ : ι → ℝ) (i : ι) :
    (aMat S F).mulVec γ i = liftingLineLhs S F.v F.u γ i := by
  have hv : ∀ j, horseshoeVelocity (decide (i = j)) (S j).r1 (S j).r2 F.u (S i).rcp = vji S F.u i j := by
    intro j
    rw [C36_influence_biotSavart S F.u hu hd i j]
    simp [horseshoeVelocity]
  simp only [liftingLineLhs, hv, Matrix.mulVec, dotProduct, aMat, add_mul, Finset.sum_add_distrib, ite_mul, zero_mul,
    Finset.sum_ite_eq, Finset.mem_univ, if_true, Finset.mul_sum, dl]
  have e : ∑ j, -nrm (F.v i) * (S i).area * (S i).cla * dot (S i).un (vji S F.u i j) * γ j =
      -∑ j, nrm (F.v i) * (S i).cla * (S i).area * (γ j * dot (vji S F.u i j) (S i).un) := by
    rw [← Finset.sum_neg_distrib]
    refine Finset.sum_congr rfl fun j _ => ?_
    rw [dot_comm (S i).un]
    ring
  rw [e]
  ring

omit [Fintype ι] [DecidableEq ι] in
theorem bVec_eq_rhs (S : ι → Section) (F : Flow ι) (C : Ctrl ι) (i : ι) :
    bVec S F C i = liftingLineRhs S F.v C i := by
  simp only [bVec, liftingLineRhs, clRhs, sectionLift, lerp, alphaLoc, effFlap]
  ring

/-- **C32 (solution).** For every successful solve with an explicit aero state the vortex strengths satisfy the
lifting-line equation at every section, and they are the only ones that do. -/
theorem C32_lifting_line (G : LLGeom ι) (st st' : LLState ι) (stype : String) (d : AeroDict ι) (c : Option CtrlDict)
    (R : Sol ι) (hd : d.truthy = true) (h : llSolve G st stype (some d) c = (.ok R, st')) :
    ∃ v u, st'.v = some v ∧ st'.u = some u ∧
      LiftingLine G.S v u st'.ctrl R.gamma ∧ ∀ γ, LiftingLine G.S v u st'.ctrl γ → γ = R.gamma := by
  obtain ⟨v, u, hv, hu, hs, -, -⟩ := llSolve_ok h
  have hu1 := llSolve_unit hd h hu
  obtain ⟨hi, -, hdet, -, hg, -⟩ := solveLinear_ok hs
  have lhs := aMat_eq_lhs G.S ⟨v, u, st'.rho⟩ hu1 hi
  have rhs := bVec_eq_rhs G.S ⟨v, u, st'.rho⟩ st'.ctrl
  refine ⟨v, u, hv, hu, ?_, ?_⟩
  · intro i
    rw [← lhs, ← rhs, hg]
  · intro γ hγ
    have h1 : (aMat G.S ⟨v, u, st'.rho⟩).mulVec γ = (aMat G.S ⟨v, u, st'.rho⟩).mulVec R.gamma := by
      rw [hg]
      funext i
      rw [lhs, rhs, hγ i]
    have hinj := Matrix.mulVec_injective_of_isUnit
      ((Matrix.isUnit_iff_isUnit_det _).mpr (isUnit_iff_ne_zero.mpr hdet))
    exact hinj h1

/-- **C32 (singular systems).** If the homogeneous lifting-line equation for the flow of the given aero state has a
non-zero solution, the solve does not return a result. -/
theorem C32_singular (G : LLGeom ι) (st st' : LLState ι) (stype : String) (d : AeroDict ι) (c : Option CtrlDict)
    (hd : d.truthy = true) (r : Except PyErr (Sol ι)) (h : llSolve G st stype (some d) c = (r, st'))
    (v : ι → V3) (u : V3) (hv : st'.v = some v) (hu : st'.u = some u)
    (γ : ι → ℝ) (hγ : γ ≠ 0) (h0 : ∀ i, liftingLineLhs G.S v u γ i = 0) : ∃ e, r = .error e := by
  cases r with
  | error e => exact ⟨e, rfl⟩
  | ok R =>
    exfalso
    obtain ⟨v', u', hv', hu', hs, -, -⟩ := llSolve_ok h
    have hu1 := llSolve_unit hd h hu'
    obtain ⟨hi, -, hdet, -, -, -⟩ := solveLinear_ok hs
    rw [hv] at hv'; rw [hu] at hu'
    cases hv'; cases hu'
    have lhs := aMat_eq_lhs G.S ⟨v, u, st'.rho⟩ hu1 hi
    have hinj := Matrix.mulVec_injective_of_isUnit
      ((Matrix.isUnit_iff_isUnit_det _).mpr (isUnit_iff_ne_zero.mpr hdet))
    apply hγ
    apply hinj
    rw [Matrix.mulVec_zero]
    funext i
    rw [lhs]; exact h0 i

example : ∃ (R : Sol (Fin 2)) (st' : LLState (Fin 2)),
    llSolve exGeom (LLState.init _) "linear" (some exAero) (some exCtrl) = (.ok R, st') ∧ exAero.truthy = true ∧
      R.gamma ≠ 0 :=
  ⟨exSol, (llSolve exGeom (LLState.init _) "linear" (some exAero) (some exCtrl)).2,
    Prod.ext (ex_solve _) rfl, exAero_truthy, fun h => by
      have := congrFun h 0
      have h2 : exSol.gamma 0 = exGamma := rfl
      rw [h2] at this
      exact exGamma_pos.ne' this⟩

/-- the example with a (badly chosen) negative lift slope for which the equations are singular -/
noncomputable def exSing : LLGeom (Fin 2) := ⟨exGeom.cg, fun i => { exGeom.S i with cla := -(3 * Real.pi / 2) }⟩

-- there are singular configurations
example : (llSolve exSing (LLState.init _) "linear" (some exAero) (some exCtrl)).2.v = some exFlow.v ∧
    (llSolve exSing (LLState.init _) "linear" (some exAero) (some exCtrl)).2.u = some exFlow.u ∧
    ∀ i, liftingLineLhs exSing.S exFlow.v exFlow.u ![1, -1] i = 0 := by
  have ha : arrOf exSing exAero = .ok ⟨some exFlow.v, some exFlow.u, exFlow.rho⟩ := by
    simp [arrOf, exAero, rotArr, AeroDict.hasRates, ex_freestream, ex_normalise, exFlow]
  obtain ⟨h1, h2, -⟩ := llSolve_state exSing (LLState.init (Fin 2)) "linear" exAero (some exCtrl) exAero_truthy _ ha
  refine ⟨h1, h2, ?_⟩
  have hd : InfluenceDefined exSing.S exFlow.u := ex_defined.1
  have hu : nrm exFlow.u = 1 := by rw [show exFlow.u = ⟨-1, 0, 0⟩ from rfl, nrm_x]; norm_num
  have hpi := Real.pi_ne_zero
  have hv : ∀ i j, vji exSing.S exFlow.u i j = ⟨0, 0, if i = j then 1 / Real.pi else -(1 / (3 * Real.pi))⟩ := ex_vji
  have h1 : nrm (⟨-10, 0, 0⟩ : V3) = 10 := by rw [nrm_x]; norm_num
  have h2 : ∀ i, cross (⟨-10, 0, 0⟩ : V3) (dl (exSing.S i)) = ⟨0, 0, -10⟩ := by
    intro i
    fin_cases i <;> ext <;> simp [dl, exSing, exGeom, exSec]
  have h3 : nrm (⟨0, 0, -10⟩ : V3) = 10 := by rw [nrm_z]; norm_num
  have ha : ∀ i, (exSing.S i).area = 1 := by intro i; fin_cases i <;> rfl
  have hn : ∀ i, (exSing.S i).un = ⟨0, 0, -1⟩ := by intro i; fin_cases i <;> rfl
  have hc : ∀ i, (exSing.S i).cla = -(3 * Real.pi / 2) := fun i => rfl
  intro i
  rw [← aMat_eq_lhs exSing.S exFlow hu hd]
  have hvi : exFlow.v i = ⟨-10, 0, 0⟩ := rfl
  simp only [Matrix.mulVec, dotProduct, Fin.sum_univ_two, aMat, hv, hvi, h1, h2, h3, ha, hn, hc, dot]
  fin_cases i <;> simp <;> field_simp <;> norm_num

/-- **C33.** If at every section the incidence of the undisturbed flow plus the effective flap deflection equals the
zero-lift angle of both airfoils of the segment, all vortex strengths and inviscid forces are zero and every section
sees the undisturbed flow. -/
theorem C33_zero_lift (G : LLGeom ι) (st st' : LLState ι) (stype : String) (a : Option (AeroDict ι))
    (c : Option CtrlDict) (R : Sol ι) (h : llSolve G st stype a c = (.ok R, st'))
    (v : ι → V3) (hv : st'.v = some v)
    (hz : ∀ i, let α := Real.arctan (dot (v i) (G.S i).un / dot (v i) (G.S i).ua) +
        (G.S i).flapEff * st'.ctrl.eff i * st'.ctrl.delta i
      α = (G.S i).left.al0 ∧ α = (G.S i).right.al0) :
    (∀ i, R.gamma i = 0) ∧ (∀ i, R.force i = 0) ∧ R.vi = v ∧
      R.inviscid.FX = 0 ∧ R.inviscid.FY = 0 ∧ R.inviscid.FZ = 0 ∧
      R.inviscid.FL = 0 ∧ R.inviscid.FD = 0 ∧ R.inviscid.FS = 0 := by
  obtain ⟨v', u, hv', hu, hs, -, -⟩ := llSolve_ok h
  rw [hv] at hv'; cases hv'
  obtain ⟨-, -, hdet, -, hg, hR⟩ := solveLinear_ok hs
  have hb : bVec G.S ⟨v, u, st'.rho⟩ st'.ctrl = 0 := by
    funext i
    obtain ⟨h1, h2⟩ := hz i
    rw [bVec_eq_rhs]
    simp only [liftingLineRhs, sectionLift, h1, Pi.zero_apply]
    rw [← h1, h2]; ring
  have hg0 : R.gamma = 0 := by
    have hinj := Matrix.mulVec_injective_of_isUnit
      ((Matrix.isUnit_iff_isUnit_det _).mpr (isUnit_iff_ne_zero.mpr hdet))
    apply hinj
    rw [hg, hb, Matrix.mulVec_zero]
  rw [hg0] at hR
  have hf : ∀ i, R.force i = 0 := by
    intro i; rw [hR]; simp [solOf, secForce]
  have hF : R.inviscid = mkLoads u (∑ i, R.force i) (∑ i, R.moment i) := by rw [hR]; rfl
  simp only [hf, Finset.sum_const_zero] at hF
  refine ⟨fun i => by rw [hg0]; rfl, hf, ?_, ?_⟩
  · rw [hR]; funext i; simp [solOf, vInd]
  · rw [hF]; simp [mkLoads, rotateAero]

-- a cambered wing whose lift is cancelled by its flap
example : ∃ (R : Sol (Fin 2)) (st' : LLState (Fin 2)) (v : Fin 2 → V3),
    llSolve exGeom (LLState.init _) "linear" (some exAero) (some exCtrl0) = (.ok R, st') ∧ st'.v = some v ∧
    (∀ i, let α := Real.arctan (dot (v i) (exGeom.S i).un / dot (v i) (exGeom.S i).ua) +
        (exGeom.S i).flapEff * st'.ctrl.eff i * st'.ctrl.delta i
      α = (exGeom.S i).left.al0 ∧ α = (exGeom.S i).right.al0) ∧ ∀ i, (exGeom.S i).left.al0 ≠ 0 := by
  obtain ⟨hv, -, -⟩ := llSolve_state exGeom (LLState.init (Fin 2)) "linear" exAero (some exCtrl0) exAero_truthy _ ex_arr
  have hcs := llSolve_ctrl exGeom (LLState.init (Fin 2)) "linear" exAero exCtrl0 exAero_truthy exCtrl0_truthy _ ex_arr
  refine ⟨_, _, _, Prod.ext (ex0_solve _) rfl, hv, ?_, ?_⟩
  · rw [hcs, ex0_ctrl]
    intro i
    have hv : exFlow.v i = ⟨-10, 0, 0⟩ := rfl
    simp only [hv, exC0]
    fin_cases i <;> simp [exGeom, exSec, exAf, dot] <;> norm_num
  · intro i; fin_cases i <;> simp [exGeom, exSec, exAf]

/-- **C34.** In every successful solve the inviscid force on each section is perpendicular to the velocity there
and to the bound segment; the viscous force is along the velocity, downstream when density, drag coefficient and area are
not negative. -/
theorem C34_section_forces (G : LLGeom ι) (st st' : LLState ι) (stype : String) (a : Option (AeroDict ι))
    (c : Option CtrlDict) (R : Sol ι) (h : llSolve G st stype a c = (.ok R, st')) (i : ι) :
    dot (R.force i) (R.vi i) = 0 ∧ dot (R.force i) ((G.S i).r2 - (G.S i).r1) = 0 ∧
    ∃ k : ℝ, R.fpar i = k • R.vi i ∧
      (0 ≤ st'.rho i → 0 ≤ R.cd i → 0 ≤ (G.S i).area → 0 ≤ k ∧ 0 ≤ dot (R.fpar i) (R.vi i)) := by
  obtain ⟨v, u, hv, hu, hs, -, -⟩ := llSolve_ok h
  obtain ⟨-, -, -, -, -, hR⟩ := solveLinear_ok hs
  have e1 : R.force i = (st'.rho i * R.gamma i) • cross (R.vi i) ((G.S i).r2 - (G.S i).r1) := by rw [hR]; rfl
  have e2 : R.fpar i = (0.5 * st'.rho i * nrm (v i) * nrm (v i) * R.cd i * (G.S i).area) •
      ((1 / nrm (R.vi i)) • R.vi i) := by rw [hR]; rfl
  refine ⟨?_, ?_, _, by rw [e2, smul_smul], ?_⟩
  · rw [e1, smul_dot, dot_comm, dot_cross_self, mul_zero]
  · rw [e1, smul_dot, dot_comm, dot_cross_self', mul_zero]
  · intro h1 h2 h3
    have hn := nrm_nonneg (v i)
    have hn' := nrm_nonneg (R.vi i)
    have hk : 0 ≤ 0.5 * st'.rho i * nrm (v i) * nrm (v i) * R.cd i * (G.S i).area * (1 / nrm (R.vi i)) := by positivity
    refine ⟨hk, ?_⟩
    rw [e2, smul_smul, smul_dot]
    exact mul_nonneg hk (dot_self_nonneg _)

example : ∃ (R : Sol (Fin 2)) (st' : LLState (Fin 2)),
    llSolve exGeom (LLState.init _) "linear" (some exAero) (some exCtrl) = (.ok R, st') ∧
      (∑ i, R.force i) ≠ 0 ∧ st'.rho 0 = 1 := by
  refine ⟨exSol, (llSolve exGeom (LLState.init _) "linear" (some exAero) (some exCtrl)).2,
    Prod.ext (ex_solve _) rfl, fun h => ?_, ?_⟩
  · have h1 : exSol.inviscid.FZ = (∑ i, exSol.force i).z := rfl
    rw [h, ex_FZ] at h1
    have := exGamma_pos
    simp only [zero_z] at h1
    linarith
  · obtain ⟨a, ha, -, -, h3⟩ := llSolve_arr exAero_truthy
      (Prod.ext (ex_solve (LLState.init _)) rfl :
        llSolve exGeom (LLState.init _) "linear" (some exAero) (some exCtrl) = (.ok exSol, _))
    rw [ex_arr] at ha
    cases ha
    rw [h3]; rfl

end Verif
