import Verif.Spec.CutWing
import Verif.Lemmas.Grid
import Verif.Lemmas.LLInputs

/-! Helper lemmas: the sections of a piece of a wing, and solves on the same panels. -/

namespace Verif
open V3

theorem lerp_self (s a : ℝ) : lerp s a a = a := by simp [lerp]

theorem lerp_lerp (a b x u v : ℝ) : lerp x (lerp a u v) (lerp (a + b) u v) = lerp (a + b * x) u v := by
  simp only [lerp]; ring

/-! ### solves -/

/-- the station of a section whose airfoil does not change along the wing, dropped -/
noncomputable def Section.norm (s : Section) : Section :=
  open Classical in { s with sp := if s.left = s.right then 0 else s.sp }

variable {ι ι' : Type*} [Fintype ι] [DecidableEq ι] [Fintype ι'] [DecidableEq ι']

theorem lerp_norm (s : Section) (f : AfCoef → ℝ) : lerp s.norm.sp (f s.norm.left) (f s.norm.right) = lerp s.sp (f s.left) (f s.right) := by
  unfold Section.norm
  by_cases h : s.left = s.right
  · simp only [h, lerp_self]
  · simp only [h, if_false]

theorem solveLinear_norm (cg : V3) (S : ι → Section) (F : Flow ι) (C : Ctrl ι) :
    solveLinear cg (fun i => (S i).norm) F C = solveLinear cg S F C := by
  have h1 : clRhs (fun i => (S i).norm) F C = clRhs S F C := by
    funext i
    exact lerp_norm (S i) fun a => a.cla * (alphaLoc S F i + (effFlap S C i - a.al0))
  have h2 : secCl (fun i => (S i).norm) = secCl S := by
    funext al i
    exact lerp_norm (S i) fun a => a.cla * (al i - a.al0)
  have h3 : secCd (fun i => (S i).norm) C = secCd S C := by
    funext al i
    simp only [secCd, h2]
    congr 1
    exact lerp_norm (S i) fun a => a.cd0 + a.cd1 * secCl S al i + a.cd2 * secCl S al i * secCl S al i
  have h4 : secCm (fun i => (S i).norm) C = secCm S C := by
    funext al i
    simp only [secCm]
    congr 1
    exact lerp_norm (S i) fun a => a.cml0 + a.cma * (al i - a.al0)
  have hb : bVec (fun i => (S i).norm) F C = bVec S F C := by
    funext i
    simp only [bVec, h1]
    rfl
  have hs : ∀ γ, solOf cg (fun i => (S i).norm) F C γ = solOf cg S F C γ := by
    intro γ
    have e1 : vInd (fun i => (S i).norm) F γ = vInd S F γ := rfl
    have e2 : alphas (fun i => (S i).norm) = alphas S := rfl
    have e3 : secDrag (fun i => (S i).norm) F C = secDrag S F C := by
      funext vi i
      simp only [secDrag, h3, e2]
      rfl
    have e4 : secMoment cg (fun i => (S i).norm) F C = secMoment cg S F C := by
      funext γ vi i
      simp only [secMoment, h4, e2]
      rfl
    have e5 : secMomentP cg (fun i => (S i).norm) F C = secMomentP cg S F C := by
      funext vi i
      simp only [secMomentP, e3]
      rfl
    have e6 : secForce (fun i => (S i).norm) F γ = secForce S F γ := rfl
    simp only [solOf, e1, e2, e3, e4, e5, e6, h2, h3, h4]
  have hm : aMat (fun i => (S i).norm) F = aMat S F := rfl
  have hi : InfluenceDefined (fun i => (S i).norm) F.u = InfluenceDefined S F.u := rfl
  have hr : RhsDefined (fun i => (S i).norm) F = RhsDefined S F := rfl
  have e1 : ∀ γ, vInd (fun i => (S i).norm) F γ = vInd S F γ := fun _ => rfl
  unfold solveLinear
  rw [hm, hb]
  dsimp only
  rw [hs]
  rfl

/-- the geometry with irrelevant stations dropped -/
noncomputable def LLGeom.norm (G : LLGeom ι) : LLGeom ι := ⟨G.cg, fun i => (G.S i).norm⟩

theorem llSolve_norm (G : LLGeom ι) (st : LLState ι) (ty : String) (d : Option (AeroDict ι)) (c : Option CtrlDict) :
    llSolve G.norm st ty d c = llSolve G st ty d c := by
  have ha : processAero G.norm st d = processAero G st d := rfl
  have hc : ∀ st, processCtrl G.norm st c = processCtrl G st c := fun _ => rfl
  have hr : ∀ st, runLinear G.norm st = runLinear G st := by
    intro st
    unfold runLinear
    simp only [LLGeom.norm, solveLinear_norm]
  unfold llSolve
  simp only [ha, hc, hr]

theorem SamePanel.norm_sp {s s' : Section} (h : SamePanel s s') : s'.norm.sp = s.norm.sp := by
  unfold Section.norm
  by_cases h0 : s.left = s.right
  · have h1 : s'.left = s'.right := by rw [h.left, h.right, h0]
    simp only
    rw [if_pos h0, if_pos h1]
  · have h1 : ¬ s'.left = s'.right := by rw [h.left, h.right]; exact h0
    simp only
    rw [if_neg h0, if_neg h1]
    exact h.station.resolve_right h0

/-- Solves on the same panels, listed in any order. -/
theorem llSolve_panels (G : LLGeom ι) (G' : LLGeom ι') (σ : ι ≃ ι') (hcg : G'.cg = G.cg)
    (hS : ∀ i, SamePanel (G.S i) (G'.S (σ i))) (d : AeroDict ι) (c : Option CtrlDict) (hd : d.truthy = true) :
    Outcome (fun R R' => LoadsScaled 1 1 R R' ∧ SameSections σ R R' ∧ (∀ i, R'.gamma (σ i) = R.gamma i) ∧ R'.LD = R.LD)
      (llSolve G (LLState.init ι) "linear" (some d) c).1
      (llSolve G' (LLState.init ι') "linear" (some (d.reindex σ)) c).1 := by
  rw [← llSolve_norm G, ← llSolve_norm G']
  let T := idSim 1 one_pos 0 1 one_pos 1
  have h := llSolve_image T σ (G := G.norm) (G' := G'.norm) (d := d) (d' := d.reindex σ) (c := c) (c' := c)
    (τ := 1) (by simp [T]) (by simp)
    (fun i => by
      have k := hS i
      have e := k.norm_sp
      constructor <;> simp [T, LLGeom.norm] <;>
        first
        | exact e
        | exact k.rcp
        | exact k.r1
        | exact k.r2
        | exact k.left
        | exact k.right
        | exact k.area
        | exact k.cla
        | exact k.ua
        | exact k.un
        | exact k.us
        | exact k.flapEff
        | exact k.cmd
        | exact k.ic2)
    (by simp [T, LLGeom.norm, hcg]) hd (by rw [truthy_reindex, hd])
    (arrOf_image T σ rfl
      (fun i => by
        have k := (hS i).rcp
        simp [T, LLGeom.norm, AeroDict.reindex, hcg]
        change _ = cross _ ((G.S i).rcp - G.cg)
        rw [← k]
        rfl)
      (by simp [T, AeroDict.reindex]) (fun V => by simp [T, AeroDict.reindex])
      (fun _ => by simp [T, AeroDict.reindex]) (by simp [T, AeroDict.reindex]))
    (LLState.init ι) (LLState.init ι')
    (by
      have hm : ∀ i, (G'.S (σ i)).mixA = (G.S i).mixA ∧ (G'.S (σ i)).mixE = (G.S i).mixE ∧ (G'.S (σ i)).mixR = (G.S i).mixR ∧
          (G'.S (σ i)).mixF = (G.S i).mixF := fun i => ⟨(hS i).mixA, (hS i).mixE, (hS i).mixR, (hS i).mixF⟩
      have e1 : (processCtrl G.norm (LLState.init ι) c) = processCtrl G (LLState.init ι) c := rfl
      have e2 : (processCtrl G'.norm (LLState.init ι') c) = processCtrl G' (LLState.init ι') c := rfl
      rw [e1, e2]
      unfold processCtrl
      cases c with
      | none => exact ⟨fun _ => rfl, fun _ => rfl⟩
      | some c =>
        by_cases hc : c.truthy
        · simp only [hc, if_true]
          exact ⟨fun i => by simp [hm i], fun i => by simp [hm i]⟩
        · simp only [hc]
          exact ⟨fun _ => rfl, fun _ => rfl⟩)
  refine h.mono fun R R' _ _ hi => ⟨?_, hi.sameSections, ?_, ?_⟩
  · simpa [T] using hi.loadsScaled (fun a => by simp [T]) (by simp [T])
  · intro i
    simpa [T] using hi.gamma i
  · have := hi.LD (by simp [T])
    simpa [T] using this

end Verif
