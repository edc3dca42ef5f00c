import Verif.Examples.LL
import Verif.Thm.GridExists

/-!
# A concrete aircraft

A rectangular wing of two sections with full-span elevons, built through the API, whose lifting-line solution can be
computed by hand (it is that of `exGeom`).
-/

namespace Verif
open V3

/-- the API calls -/
noncomputable def unitOps : List PlaneOp :=
  [.addWing "w" none "tip" "both" { semispan := some 1, grid := some 1 },
   .airfoil 0 "af" "both" { al0 := some (-1/20), cla := some 6, clMax := some (7/5), cml0 := some (-1/20),
                            cma := some (-1/10), cd0 := some (1/100), cd1 := some 0, cd2 := some (1/100) },
   .controlSurface 0 { percentSpan := some (0, 1), percentChord := some (.single (1/4)),
                       mix := some { aileron := some 1, elevator := some 1 } },
   .cgLocation (some 1) none none]

/-- the aircraft -/
noncomputable def unitPlane : Plane := built "unit" none unitOps

/-- its airfoil -/
noncomputable def unitAf : Airfoil :=
  { name := "af", spanPosition := none, al0 := -1/20, cla := 6, clMax := 7/5, cml0 := -1/20, cma := -1/10
    cd0 := 1/100, cd1 := 0, cd2 := 1/100 }

/-- its elevons -/
noncomputable def unitCs : CtrlSurf :=
  { spanRoot := 0, spanTip := 1, chordRoot := 1/4, chordTip := 1/4, sealed := true, aileron := some 1
    elevator := some 1 }

/-- its wing segments -/
noncomputable def unitSeg (side : Side) : Seg :=
  { name := side.str ++ "_w", side := side, parent := .plane, connectAt := side.str ++ "_tip", isMain := true
    dpos := 0, yoffset := 0, span := 1, rootChord := 1, tipChord := 1, sweep := 0, dihedral := 0, mount := 0
    washout := 0, root := unitAf, tip := unitAf, cs := unitCs, n := 1 }

theorem unit_heap : unitPlane.heap = [.both (unitSeg .left) (unitSeg .right)] := rfl
theorem unit_wings : unitPlane.wings = [("w", 0)] := rfl
theorem unit_segments : unitPlane.segments = [unitSeg .left, unitSeg .right] := rfl

theorem unit_heap_cases (b : ℕ) (w : Wing) (h : unitPlane.heap[b]? = some w) :
    b = 0 ∧ w = .both (unitSeg .left) (unitSeg .right) := by
  rw [unit_heap] at h
  match b with
  | 0 => simp at h; exact ⟨rfl, h.symm⟩
  | b + 1 => simp at h

theorem unit_wellFormed : WellFormed unitPlane := by
  constructor
  · intro b w hb s hs a ha
    obtain ⟨rfl, rfl⟩ := unit_heap_cases b w hb
    simp [Wing.segments] at hs; rcases hs with rfl | rfl <;> simp [unitSeg] at ha
  · intro b w hb s hs
    obtain ⟨rfl, rfl⟩ := unit_heap_cases b w hb
    simp [Wing.segments] at hs; rcases hs with rfl | rfl <;> simp [unitSeg]
  all_goals
    intro s hs
    rw [unit_segments] at hs
    simp at hs
    rcases hs with rfl | rfl <;> simp [unitSeg, unitCs] <;> norm_num

/-- a section of the grid of the aircraft -/
noncomputable def unitSec (side : Side) : Section :=
  { exSec (if side = .left then -1 else 0) (if side = .left then -1 else 1) (side.str ++ "_w") with
    flapEff := etaH true (1/4) * epsF (1/4), cmd := cmD (1/4) }

theorem unit_cg : unitPlane.cg = ⟨1, 0, 0⟩ := by
  have h : unitPlane.cg = ⟨Plane.setCoord 0 (some 1), 0, 0⟩ := rfl
  rw [h]; simp [Plane.setCoord]

theorem unit_tips : unitPlane.segPosition (unitSeg .left) .leftTip = .ok ⟨0, -1, 0⟩ ∧
    unitPlane.segPosition (unitSeg .left) .rightTip = .ok 0 ∧
    unitPlane.segPosition (unitSeg .right) .leftTip = .ok 0 ∧
    unitPlane.segPosition (unitSeg .right) .rightTip = .ok ⟨0, 1, 0⟩ := by
  have hp : unitPlane.getPosition = 0 := rfl
  refine ⟨?_, ?_, ?_, ?_⟩ <;> simp only [Plane.segPosition, segPos, unitSeg, hp, Seg.tipOffset, addOff] <;> simp
  all_goals ext <;> simp

theorem unit_stations (c : Bool) : sCp c 1 0 = 1 / 2 ∧ sC1 c 1 0 = 0 ∧ sC2 c 1 0 = 1 := by
  cases c
  · simp [sCp, sC1, sC2, spacing, linSpacing]; norm_num
  · refine ⟨?_, ?_, ?_⟩ <;> simp [sCp, sC1, sC2, spacing, cosSpacing]
    · rw [show Real.pi * (1 - 0.5) = Real.pi / 2 by ring, Real.cos_pi_div_two]; norm_num
    · norm_num

theorem unit_section (c : Bool) (side : Side) (l r : V3) (h1 : l = ⟨0, if side = .left then -1 else 0, 0⟩)
    (h2 : r = ⟨0, if side = .left then 0 else 1, 0⟩) :
    (segSection c (unitSeg side) l r 0).withIc2.toSection = unitSec side := by
  obtain ⟨e1, e2, e3⟩ := unit_stations c
  have hd : r - l = ⟨0, 1, 0⟩ := by rw [h1, h2]; cases side <;> ext <;> simp
  have hn : nrm (r - l) ≠ 0 := by rw [hd, nrm_y]; norm_num
  have hw : (unitSeg side).csSpan.2 - (unitSeg side).csSpan.1 ≠ 0 := by
    cases side <;> simp [Seg.csSpan, unitSeg, unitCs]
  have hcov : (unitSeg side).covers (1 / 2) := by
    rw [covers_iff]; cases side <;> simp [unitSeg, unitCs, rootStation] <;> norm_num
  have hf : (unitSeg side).flapChord (1 / 2) = 1 / 4 := by
    rw [flapChord_root _ _ hw]; simp [unitSeg, unitCs]
  have hn1 : (unitSeg side).n = 1 := rfl
  have hp : ∀ t, segPoint l r t = ⟨0, (if side = .left then -1 else 0) + t, 0⟩ := by
    intro t; rw [segPoint_eq hn, hd, h1]; ext <;> simp
  have hfr : frame side 0 0 0 = (⟨-1, 0, 0⟩, ⟨0, 0, -1⟩) := by
    cases side <;> simp [frame]
  have hus : cross (⟨-1, 0, 0⟩ : V3) ⟨0, 0, -1⟩ = ⟨0, -1, 0⟩ := by ext <;> simp
  have hl : ∀ a t : ℝ, lerp t a a = a := by intro a t; simp [lerp]
  have hcov' : (unitSeg side).covers (sCp c (unitSeg side).n 0) := by rw [hn1, e1]; exact hcov
  simp only [segSection, GridSec.withIc2, if_pos hcov']
  simp only [hn1, e1, e2, e3, hp, hf, unitSec, exSec]
  cases side <;>
    simp only [unitSeg, leftRight, hl, hfr, hus, Section.mk.injEq, Airfoil.coef, unitAf, unitCs, exAf, CtrlSurf.mixFor] <;>
    simp [dot, nrm] <;> norm_num

/-- The lifting-line geometry of the aircraft. -/
noncomputable def unitGeom : LLGeom (Fin 2) := ⟨⟨1, 0, 0⟩, ![unitSec .left, unitSec .right]⟩

/-- the grid of the aircraft -/
theorem unit_grid (c : Bool) : ∃ g, mkGrid unitPlane c = .ok g ∧ ∃ (a b : GridSec), g.data = [a, b] ∧
    a.toSection = unitSec .left ∧ b.toSection = unitSec .right ∧ g.refArea = 2 := by
  obtain ⟨g, hg⟩ := grid_exists _ _ _ unit_wellFormed c
  refine ⟨g, hg, ?_⟩
  obtain ⟨vs, hvs, h1, _, h3⟩ := mkGrid_ok hg
  have hseg : (built "unit" none unitOps).segments = [unitSeg .left, unitSeg .right] := rfl
  rw [hseg] at hvs h3
  obtain ⟨t1, t2, t3, t4⟩ := unit_tips
  cases hvs with
  | cons hl h =>
    cases h with
    | cons hr h =>
      cases h
      obtain ⟨L, R, p1, p2, _, _, _, _, rfl⟩ := segData_ok hl
      obtain ⟨L', R', p1', p2', _, _, _, _, rfl⟩ := segData_ok hr
      have q1 := t1.symm.trans p1
      have q2 := t2.symm.trans p2
      have q3 := t3.symm.trans p1'
      have q4 := t4.symm.trans p2'
      simp only [Except.ok.injEq] at q1 q2 q3 q4
      subst q1 q2 q3 q4
      have e1 := unit_section c .left ⟨0, -1, 0⟩ 0 (by simp) (by simp; rfl)
      have e2 := unit_section c .right 0 ⟨0, 1, 0⟩ (by simp; rfl) (by simp)
      refine ⟨_, _, h1, e1, e2, ?_⟩
      have a1 : (segSection c (unitSeg .left) ⟨0, -1, 0⟩ 0 0).area = 1 := congrArg Section.area e1
      have a2 : (segSection c (unitSeg .right) 0 ⟨0, 1, 0⟩ 0).area = 1 := congrArg Section.area e2
      rw [h3]
      simp [refOf, unitSeg, List.range_succ] at a1 a2 ⊢
      rw [a1, a2]; norm_num

/-- with neutral controls the flap effectiveness does not matter -/
theorem solveLinear_flap {ι : Type*} [Fintype ι] [DecidableEq ι] (cg : V3) (S S' : ι → Section) (a b : ι → ℝ)
    (F : Flow ι) (C : Ctrl ι) (hS : S' = fun i => { S i with flapEff := a i, cmd := b i }) (hC : ∀ i, C.delta i = 0) :
    solveLinear cg S' F C = solveLinear cg S F C := by
  have h1 : bVec S' F C = bVec S F C := by
    funext i
    simp only [bVec, clRhs, effFlap, hC]
    simp only [mul_zero]
    rw [hS]; rfl
  have h2 : secCm S' C = secCm S C := by
    funext al i
    rw [hS]; simp [secCm, hC]
  have v : vInd S' F = vInd S F := by rw [hS]; rfl
  have al : alphas S' = alphas S := by rw [hS]; rfl
  have fo : secForce S' F = secForce S F := by rw [hS]; rfl
  have fp : secDrag S' F C = secDrag S F C := by rw [hS]; rfl
  have mp : secMomentP cg S' F C = secMomentP cg S F C := by rw [hS]; rfl
  have cl : secCl S' = secCl S := by rw [hS]; rfl
  have cd : secCd S' C = secCd S C := by rw [hS]; rfl
  have hm : secMoment cg S' F C = secMoment cg S F C := by
    funext γ vi i
    unfold secMoment
    rw [h2, al, fo, hS]
  have h3 : ∀ γ, solOf cg S' F C γ = solOf cg S F C γ := by
    intro γ
    unfold solOf
    simp only [v, al, fo, fp, mp, cl, cd, hm, h2]
  have d1 : InfluenceDefined S' F.u = InfluenceDefined S F.u := by rw [hS]; rfl
  have d2 : RhsDefined S' F = RhsDefined S F := by rw [hS]; rfl
  have m : aMat S' F = aMat S F := by rw [hS]; rfl
  unfold solveLinear
  simp only
  rw [d1, d2, m, h1, v, h3]

theorem unit_solveLinear : solveLinear unitGeom.cg unitGeom.S exFlow exC = .ok exSol := by
  rw [← ex_solveLinear]
  have : unitGeom.S = fun i => { exGeom.S i with flapEff := etaH true (1/4) * epsF (1/4), cmd := cmD (1/4) } := by
    funext i; fin_cases i <;> rfl
  exact solveLinear_flap _ exGeom.S _ _ _ _ _ this fun _ => rfl

/-- the aero state of `exAero` on any number of sections -/
noncomputable def unitAero (ι : Type*) : AeroDict ι := { Vmag := some 10, rho := some 1 }

theorem unit_solve (st : LLState (Fin 2)) :
    (llSolve unitGeom st "linear" (some (unitAero _)) (some exCtrl)).1 = .ok exSol := by
  have ht : (unitAero (Fin 2)).truthy = true := rfl
  rw [llSolve_explicit _ _ _ _ ht exCtrl_truthy]
  have ha : arrOf unitGeom (unitAero _) = .ok ⟨some exFlow.v, some exFlow.u, exFlow.rho⟩ := by
    simp [arrOf, unitAero, rotArr, AeroDict.hasRates, ex_freestream, ex_normalise, exFlow]
  have hc : ctrlOf unitGeom exCtrl = exC := by
    simp [ctrlOf, exCtrl, exC, deflEff]
    funext i; rw [if_neg (by norm_num)]
  rw [ha, hc]
  have h : solveLinear unitGeom.cg unitGeom.S ⟨exFlow.v, exFlow.u, exFlow.rho⟩ exC = .ok exSol := unit_solveLinear
  simp only [kern, h]

theorem exSol_FZ_ne : exSol.inviscid.FZ ≠ 0 := by
  rw [ex_FZ]; have := exGamma_pos; intro h; linarith

/-- The grid of the aircraft exists, and the solve on it succeeds with a non-zero force, whatever was solved before. -/
theorem unit_forces (c : Bool) : ∃ g, mkGrid unitPlane c = .ok g ∧ ∀ st : LLState (Fin g.data.length),
    ∃ R, (llSolve (g.geom unitPlane.cg) st "linear" (some (unitAero _)) (some exCtrl)).1 = .ok R ∧
      R.inviscid.FZ ≠ 0 ∧ R.total.FX < 0 := by
  obtain ⟨g, hg, a, b, hd, ha, hb, _⟩ := unit_grid c
  refine ⟨g, hg, ?_⟩
  obtain ⟨data, sl, ra⟩ := g
  simp only at hd
  subst hd
  intro st
  have : Grid.geom ⟨[a, b], sl, ra⟩ unitPlane.cg = unitGeom := by
    unfold Grid.geom unitGeom
    rw [unit_cg]
    congr 1
    funext i
    refine Fin.cases ?_ (fun j => ?_) i
    · exact ha
    · obtain ⟨j, hj⟩ := j
      have : j = 0 := by simp at hj; omega
      subst this
      exact hb
  rw [this]
  exact ⟨exSol, unit_solve st, exSol_FZ_ne, ex_FX⟩

theorem unit_nontrivial (c : Bool) : ∃ g, mkGrid unitPlane c = .ok g ∧ ∀ st : LLState (Fin g.data.length),
    ∃ R, (llSolve (g.geom unitPlane.cg) st "linear" (some (unitAero _)) (some exCtrl)).1 = .ok R ∧
      R.inviscid.FZ ≠ 0 := by
  obtain ⟨g, hg, h⟩ := unit_forces c
  exact ⟨g, hg, fun st => (h st).imp fun R hR => ⟨hR.1, hR.2.1⟩⟩

end Verif
