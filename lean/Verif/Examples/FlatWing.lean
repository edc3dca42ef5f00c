import Verif.Lemmas.MU
import Verif.Model.MachUp
import Verif.Examples.LL
import Verif.Lemmas.LLKernel
import Verif.Thm.LLKernel
import Mathlib.LinearAlgebra.Matrix.Determinant.Basic

/-!
# A wing whose airfoil makes no lift

Two sections with drag but zero lift slope.  The linear system is diagonal, so that the solve succeeds for every flow with
a non-zero axial component; used to show that hypotheses about several solves at different states can be met.
-/

namespace Verif
open V3

/-- airfoil with drag and without lift -/
noncomputable def flatAf : AfCoef := ⟨0, 0, 0, 0, 1/100, 0, 0⟩

/-- section of the flat wing: `y0` is the left corner -/
noncomputable def flatSec (y0 : ℝ) (name : String) : Section where
  name := name
  sp := 1 / 2
  rcp := ⟨0, y0 + 1 / 2, 0⟩
  r1 := ⟨0, y0, 0⟩
  r2 := ⟨0, y0 + 1, 0⟩
  chord := 1
  twist := 0
  dihedral := 0
  sweep := 0
  area := 1
  cla := 0
  al0 := 0
  clMax := 7 / 5
  left := flatAf
  right := flatAf
  ua := ⟨-1, 0, 0⟩
  un := ⟨0, 0, -1⟩
  us := ⟨0, -1, 0⟩
  flapEff := 0
  cmd := 0
  ic2 := 1
  mixA := 0
  mixE := 0
  mixR := 0
  mixF := 0

/-- two sections, one on each side -/
noncomputable def flatGeom : LLGeom (Fin 2) where
  cg := ⟨0, 0, 0⟩
  S := ![flatSec (-1) "left_w", flatSec 0 "right_w"]

theorem flat_infl {u : V3} (hu : nrm u = 1) (hx : u.x ≠ 0) : InfluenceDefined flatGeom.S u := by
  have hsub : ∀ a b : ℝ, ((⟨0, a, 0⟩ : V3) - ⟨0, b, 0⟩) = ⟨0, a - b, 0⟩ := by
    intro a b; ext <;> simp
  have huu : u.x * u.x + u.y * u.y + u.z * u.z = 1 := by
    have := nrm_mul_self u
    rw [hu] at this
    simp only [dot] at this
    linarith
  have hxx : 0 < u.x * u.x := mul_self_pos.2 hx
  have hy1 : u.y < 1 := by nlinarith [mul_self_nonneg u.z]
  have hy2 : -1 < u.y := by nlinarith [mul_self_nonneg u.z]
  unfold InfluenceDefined
  simp only [Fin.forall_fin_two, flatGeom, flatSec, Matrix.cons_val_zero, Matrix.cons_val_one, hsub, nrm_y, dot]
  have key : ∀ r : ℝ, r ≠ 0 → |r| * (|r| - (u.x * 0 + u.y * r + u.z * 0)) ≠ 0 := by
    intro r hr
    refine mul_ne_zero (abs_ne_zero.2 hr) ?_
    rcases lt_or_gt_of_ne hr with h | h
    · rw [abs_of_neg h]; nlinarith
    · rw [abs_of_pos h]; nlinarith
  refine ⟨⟨⟨?_, ?_⟩, ?_, ?_⟩, ⟨⟨?_, ?_⟩, ?_, ?_⟩, ⟨⟨?_, ?_⟩, ?_, ?_⟩⟩
  any_goals exact key _ (by norm_num)
  all_goals norm_num

theorem flat_wind {u : V3} (hu : nrm u = 1) (hx : u.x ≠ 0) : WindAxesDefined u := by
  have h1 : cross u ey ≠ 0 := by
    intro h
    have := congrArg V3.z h
    simp [ey] at this
    exact hx this
  have h2 : nrm (cross u ey) ≠ 0 := fun h => h1 (nrm_eq_zero.1 h)
  refine ⟨h2, fun h => ?_⟩
  have hl : nrm (liftAxis u) = 1 := nrm_unit h2
  have hd : dot (liftAxis u) u = 0 := by
    unfold liftAxis unit
    rw [smul_dot, dot_comm, dot_cross_self, mul_zero]
  have := lagrange (liftAxis u) u
  rw [← nrm_mul_self, ← nrm_mul_self, ← nrm_mul_self, h, hd, hl, hu] at this
  norm_num at this

theorem flat_aMat (F : Flow (Fin 2)) :
    aMat flatGeom.S F = Matrix.diagonal fun i => 2 * nrm (cross (F.v i) (dl (flatGeom.S i))) := by
  ext i j
  have hc : (flatGeom.S i).cla = 0 := by fin_cases i <;> rfl
  simp [aMat, hc, Matrix.diagonal_apply]

theorem flat_solveLinear {F : Flow (Fin 2)} (C : Ctrl (Fin 2)) (hu : nrm F.u = 1) (hx : F.u.x ≠ 0)
    (hv : ∀ i, (F.v i).x ≠ 0) :
    solveLinear flatGeom.cg flatGeom.S F C = .ok (solOf flatGeom.cg flatGeom.S F C 0) := by
  have hdl : ∀ i, dl (flatGeom.S i) = ⟨0, 1, 0⟩ := by
    intro i; fin_cases i <;> ext <;> simp [dl, flatGeom, flatSec]
  have hdet : (aMat flatGeom.S F).det ≠ 0 := by
    rw [flat_aMat, Matrix.det_diagonal]
    refine Finset.prod_ne_zero_iff.2 fun i _ => mul_ne_zero two_ne_zero fun h => ?_
    rw [nrm_eq_zero, hdl] at h
    have := congrArg V3.z h
    simp at this
    exact hv i this
  have hb : bVec flatGeom.S F C = 0 := by
    funext i
    have h1 : (flatGeom.S i).left.cla = 0 := by fin_cases i <;> rfl
    have h2 : (flatGeom.S i).right.cla = 0 := by fin_cases i <;> rfl
    simp [bVec, clRhs, h1, h2, lerp]
  have hrhs : RhsDefined flatGeom.S F := by
    intro i
    have h1 : (flatGeom.S i).ua = ⟨-1, 0, 0⟩ := by fin_cases i <;> rfl
    simp [h1, dot, hv i]
  unfold solveLinear
  rw [if_neg (not_not.mpr ⟨flat_infl hu hx, hrhs⟩), if_neg hdet, hb, Matrix.mulVec_zero]
  have h : PostDefined F (vInd flatGeom.S F 0) := by
    refine ⟨fun i h => ?_, flat_wind hu hx⟩
    have hvi : vInd flatGeom.S F 0 i = F.v i := by simp [vInd]
    rw [hvi, nrm_eq_zero] at h
    exact hv i (by rw [h]; rfl)
  simp only
  rw [if_neg (not_not.mpr h)]

theorem flat_cl (F : Flow (Fin 2)) (C : Ctrl (Fin 2)) (γ : Fin 2 → ℝ) (i : Fin 2) :
    (solOf flatGeom.cg flatGeom.S F C γ).cl i = 0 := by
  have h1 : (flatGeom.S i).left.cla = 0 := by fin_cases i <;> rfl
  have h2 : (flatGeom.S i).right.cla = 0 := by fin_cases i <;> rfl
  simp [solOf, secCl, h1, h2, lerp]

/-- A solve of the flat wing succeeds if the flow has a non-zero axial component everywhere. -/
theorem flat_llSolve (st : LLState (Fin 2)) {d : AeroDict (Fin 2)} (c : Option CtrlDict) {V ρ : ℝ} {w : V3}
    (hV : d.Vmag = some V) (hρ : d.rho = some ρ) (hl : d.localState = none)
    (hw : freestream V (d.alpha.getD 0) (d.beta.getD 0) = some w) (hx : w.x ≠ 0)
    (hyaw : |d.yaw.getD 0| < |w.x|) :
    ∃ F C, (llSolve flatGeom st "linear" (some d) c).1 = .ok (solOf flatGeom.cg flatGeom.S F C 0) := by
  have ht : d.truthy = true := by simp [AeroDict.truthy, hV]
  have hw0 : nrm w ≠ 0 := by
    intro h; rw [nrm_eq_zero] at h; exact hx (by rw [h]; rfl)
  rw [llSolve_aero _ _ _ _ ht]
  unfold arrOf
  rw [hl, hV, hρ]
  simp only [hw, Option.map_some, Option.bind_some, normalise, if_neg hw0]
  have hu : nrm (unit w) = 1 := nrm_unit hw0
  have hux : (unit w).x ≠ 0 := by
    simp only [unit, smul_x]
    exact mul_ne_zero (one_div_ne_zero hw0) hx
  obtain ⟨v, hv, hvx⟩ : ∃ v : Fin 2 → V3, rotArr flatGeom d (some fun _ => w) = some v ∧ ∀ i, (v i).x ≠ 0 := by
    unfold rotArr
    split
    · refine ⟨_, rfl, fun i h => ?_⟩
      have hy : |((flatGeom.S i).rcp - flatGeom.cg).y| ≤ 1 ∧ ((flatGeom.S i).rcp - flatGeom.cg).z = 0 := by
        fin_cases i <;> simp [flatGeom, flatSec] <;> norm_num [abs_le]
      simp only [sub_x, cross_x, hy.2, mul_zero, zero_sub, sub_neg_eq_add] at h
      have h1 : w.x = -(d.yaw.getD 0 * ((flatGeom.S i).rcp - flatGeom.cg).y) := by linarith
      have h2 : |w.x| ≤ |d.yaw.getD 0| * 1 := by
        rw [h1, abs_neg, abs_mul]
        exact mul_le_mul_of_nonneg_left hy.1 (abs_nonneg _)
      linarith
    · exact ⟨_, rfl, fun _ => hx⟩
  rw [hv]
  refine ⟨⟨v, unit w, fun _ => ρ⟩, (processCtrl flatGeom st c).ctrl, ?_⟩
  simp only [kern]
  rw [flat_solveLinear (F := ⟨v, unit w, fun _ => ρ⟩) _ hu hux hvx]

/-! ### `MachUp.solve` on a plane without propellers -/

section
variable {n : ℕ} {G : LLGeom (Fin n)} {Sw lat long : ℝ}

theorem wings_muSolve {ps : Option Unit} {w : World (wingsBackend G Sw lat long)} {d : AeroDict (Fin n)}
    (hd : w.aero = some d) (ht : d.truthy = true) :
    muSolve (B := wingsBackend G Sw lat long) ps w =
      match llSolve G w.st "linear" (some d) w.ctrl with
      | (.ok R, st') => (.ok (Loads.zero.add R.total),
          { w with st := st', objs := w.objs ++ [Loads.zero.add R.total] })
      | (.error e, st') => (.error e, { w with st := st' }) := by
  have hg : aeroGiven w = true := by simp [aeroGiven, hd, ht]
  have hP : solveProps (B := wingsBackend G Sw lat long) ps d w = (.ok none, w) := rfl
  have hW : solveWings w = (match llSolve G w.st "linear" (some d) w.ctrl with
      | (.ok R, st') => (.ok (some R), { w with st := st' })
      | (.error e, st') => (.error e, { w with st := st' }) : _ × World (wingsBackend G Sw lat long)) := by
    have : solveWings w = (onSolver (B := wingsBackend G Sw lat long)
        (fun st => llSolve G st "linear" (some (w.aero.getD {})) w.ctrl) >>= fun r => pure (some r)) w := rfl
    have e : w.aero.getD {} = d := by rw [hd]; rfl
    rw [this, e, Act.bind_def]
    unfold onSolver
    simp only
    rcases llSolve G w.st "linear" (some d) w.ctrl with ⟨_ | R, st'⟩ <;> rfl
  have hG : getAero id w = (.ok d, w) := by unfold getAero; rw [hd]; rfl
  unfold muSolve
  rw [Act.get_bind, if_pos hg]
  rw [Act.bind_def]
  unfold solveParts
  rw [Act.bind_of_ok hG, Act.bind_of_ok hP]
  rcases hs : llSolve G w.st "linear" (some d) w.ctrl with ⟨e | R, st'⟩ <;> rw [hs] at hW
  · rw [Act.bind_of_error hW]
  · rw [Act.bind_of_ok hW]
    rfl

theorem zero_add_loads (l : Loads) : Loads.zero.add l = l := by
  ext <;> simp [Loads.zero, Loads.add]

end

end Verif
