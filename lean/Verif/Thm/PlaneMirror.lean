import Verif.Lemmas.PlaneMirror
import Verif.Thm.LLScaling
import Verif.Examples.UnitPlane

/-!
# The mirror image of an aircraft built through the API (C26)
-/

namespace Verif
open V3

theorem PlaneMir.exists_grid {p p' : Plane} (h : PlaneMir p p') {c : Bool} {g : Grid} (hg : mkGrid p c = .ok g) :
    ∃ g', mkGrid p' c = .ok g' := by
  obtain ⟨vs, hvs, _⟩ := mkGrid_ok hg
  have e1 : p.segments = ((p.wings.map (·.2)).filterMap (p.heap[·]?)).flatMap Wing.segments := by
    rw [segments_eq, List.filterMap_map]; rfl
  have e2 : p'.segments = ((p.wings.map (·.2)).filterMap (p'.heap[·]?)).flatMap Wing.segments := by
    rw [segments_eq, List.filterMap_map, ← h.wings]; rfl
  rw [e1] at hvs
  obtain ⟨vs', hvs', hx⟩ := wings_mir h c _ hvs
  clear hx
  rw [← e2] at hvs'
  apply mkGrid_of
  intro s hs
  generalize p'.segments = segs at *
  clear e2
  induction hvs' with
  | nil => cases hs
  | cons hv _ ih =>
    rcases List.mem_cons.1 hs with rfl | hs
    · exact ⟨_, hv⟩
    · exact ih hs

theorem PlaneMir.grids {p p' : Plane} (h : PlaneMir p p') {c : Bool} {g g' : Grid} (hg : mkGrid p c = .ok g)
    (hg' : mkGrid p' c = .ok g') : ListImage MirRel g.data g'.data ∧ g'.refArea = g.refArea := by
  obtain ⟨vs, hvs, d1, _, d3⟩ := mkGrid_ok hg
  obtain ⟨vs', hvs', d1', _, d3'⟩ := mkGrid_ok hg'
  have e1 : p.segments = ((p.wings.map (·.2)).filterMap (p.heap[·]?)).flatMap Wing.segments := by
    rw [segments_eq, List.filterMap_map]; rfl
  have e2 : p'.segments = ((p.wings.map (·.2)).filterMap (p'.heap[·]?)).flatMap Wing.segments := by
    rw [segments_eq, List.filterMap_map, ← h.wings]; rfl
  rw [e1] at hvs d3
  rw [e2] at hvs' d3'
  obtain ⟨ws, hws, i1, i2⟩ := wings_mir h c _ hvs
  have hu : ws = vs' := by
    generalize ((p.wings.map (·.2)).filterMap (p'.heap[·]?)).flatMap Wing.segments = segs at *
    clear d3' i1 i2 d1' hg' e2
    induction hws generalizing vs' with
    | nil => cases hvs'; rfl
    | cons hv _ ih =>
      cases hvs' with
      | cons hv' hvs'' =>
        rw [hv, Except.ok.injEq] at hv'
        rw [hv', ih _ hvs'']
  subst hu
  rw [d1, d1', d3, d3']
  exact ⟨i1, i2⟩

/-- the control deflections stored after a solve -/
theorem llSolve_ctrl_after {ι : Type*} [Fintype ι] [DecidableEq ι] (G : LLGeom ι) (st : LLState ι) (d : AeroDict ι) (c : Option CtrlDict)
    (hd : d.truthy = true) :
    (llSolve G st "linear" (some d) c).2.ctrl =
      match arrOf G d with
      | .error _ => st.ctrl
      | .ok _ => (processCtrl G st c).ctrl := by
  have h := processAero_explicit G st d hd
  unfold llSolve
  cases ha : arrOf G d with
  | error e => rw [ha] at h; simp only at h; rw [h]
  | ok a =>
    rw [ha] at h
    obtain ⟨rt, h⟩ := h
    rw [h]
    simp only [if_true]
    have := processCtrl_ctrl G st { st with v := a.v, u := a.u, rho := a.rho, rates := rt } c rfl
    split <;> exact this

theorem ctrlImage_mirrored {g g' : Grid} (σ : Fin g.data.length ≃ Fin g'.data.length)
    (hσ : ∀ i, MirRel (g.data.get i) (g'.data.get (σ i))) (cg cg' : V3) (c : Option CtrlDict) {st : LLState (Fin g.data.length)}
    {st' : LLState (Fin g'.data.length)} (hC : CtrlImage σ st.ctrl st'.ctrl) :
    CtrlImage σ (processCtrl (g.geom cg) st c).ctrl (processCtrl (g'.geom cg') st' (c.map CtrlDict.mirror)).ctrl := by
  have mA : ∀ i, ((g'.geom cg').S (σ i)).mixA = -((g.geom cg).S i).mixA := fun i => (hσ i).mixA
  have mR : ∀ i, ((g'.geom cg').S (σ i)).mixR = -((g.geom cg).S i).mixR := fun i => (hσ i).mixR
  have mE : ∀ i, ((g'.geom cg').S (σ i)).mixE = ((g.geom cg).S i).mixE := fun i => (hσ i).mixE
  have mF : ∀ i, ((g'.geom cg').S (σ i)).mixF = ((g.geom cg).S i).mixF := fun i => (hσ i).mixF
  unfold processCtrl
  cases c with
  | none => exact hC
  | some c =>
    have ht : c.mirror.truthy = c.truthy := by simp [CtrlDict.truthy, CtrlDict.mirror]
    simp only [Option.map_some, ht]
    split
    · constructor <;> intro i <;>
        simp [mA, mR, mE, mF, CtrlDict.mirror, getD_map_neg]
    · exact hC

/-- The sections of `g'` are the mirror images of those of `g`.  Solves with mirrored flow and mirrored controls, on objects with mirrored
control deflections, have mirrored results, and leave mirrored control deflections. -/
theorem llSolve_mirrored {g g' : Grid} (σ : Fin g.data.length ≃ Fin g'.data.length)
    (hσ : ∀ i, MirRel (g.data.get i) (g'.data.get (σ i))) {cg cg' : V3} (hcg : cg' = mir cg) (d : AeroDict (Fin g.data.length)) (c : Option CtrlDict)
    (hd : d.truthy = true) {st : LLState (Fin g.data.length)} {st' : LLState (Fin g'.data.length)} (hC : CtrlImage σ st.ctrl st'.ctrl) :
    Outcome (fun R R' => R'.inviscid = R.inviscid.mirror ∧ R'.viscous = R.viscous.mirror ∧
        R'.total = R.total.mirror ∧ SameSections σ R R' ∧ (∀ i, R'.gamma (σ i) = R.gamma i) ∧ R'.LD = R.LD)
      (llSolve (g.geom cg) st "linear" (some d) c).1
      (llSolve (g'.geom cg') st' "linear" (some (d.mirror.reindex σ)) (c.map CtrlDict.mirror)).1 ∧
    CtrlImage σ (llSolve (g.geom cg) st "linear" (some d) c).2.ctrl
      (llSolve (g'.geom cg') st' "linear" (some (d.mirror.reindex σ)) (c.map CtrlDict.mirror)).2.ctrl := by
  let T := mirSim
  have hd' : (d.mirror.reindex σ).truthy = true := by rw [truthy_reindex, truthy_mirror, hd]
  have hcg : (g'.geom cg').cg = mir (g.geom cg).cg := hcg
  have hrcp : ∀ i, ((g'.geom cg').S (σ i)).rcp = mir ((g.geom cg).S i).rcp := fun i => by
    show (g'.data.get (σ i)).rcp = mir (g.data.get i).rcp
    simpa using (hσ i).image.rcp
  have harr : Outcome (ArrImage T σ) (arrOf (g.geom cg) d) (arrOf (g'.geom cg') (d.mirror.reindex σ)) :=
    arrOf_image T σ (by simp [AeroDict.hasRates, AeroDict.mirror, AeroDict.reindex])
      (fun i => by
        rw [hrcp, hcg]
        simp only [AeroDict.mirror, AeroDict.reindex, getD_map_neg, T, mirSim_Q, mirSim_spd]
        ext <;> simp <;> ring)
      (by simp [T, AeroDict.mirror, AeroDict.reindex])
      (fun V => by
        simp only [T, AeroDict.mirror, AeroDict.reindex, getD_map_neg, freestream_mir]
        rfl)
      (fun _ => by simp [T, AeroDict.mirror, AeroDict.reindex])
      (by simp only [T, AeroDict.mirror, AeroDict.reindex, Option.map_map]; cases d.localState <;> simp)
  have hctrl := ctrlImage_mirrored σ hσ cg cg' c hC
  have h := llSolve_image T σ (G := g.geom cg) (G' := g'.geom cg') (d := d) (d' := d.mirror.reindex σ) (c := c)
    (c' := c.map CtrlDict.mirror)
    (τ := -1) (by ext <;> simp [T, ey]) (by simp)
    (fun i => (hσ i).image)
    (by rw [hcg]; simp [T]) hd hd' harr st st' hctrl
  have key : ∀ {l l' : Loads}, BodyLoadsImage mirSim l l' →
      (l'.FL = T.sgn * (-1) * (T.den * T.spd ^ 2 * T.len ^ 2) * l.FL ∧
        l'.FD = (T.den * T.spd ^ 2 * T.len ^ 2) * l.FD ∧
        l'.FS = -1 * (T.den * T.spd ^ 2 * T.len ^ 2) * l.FS) → l' = l.mirror := by
    intro l l' hb hw
    have hF := hb.F
    have hM := hb.M
    simp only [Loads.F, Loads.M, V3.ext_iff, smul_x, smul_y, smul_z, mirSim_Q, mir_x, mir_y, mir_z, mirSim_den,
      mirSim_spd, mirSim_len, mirSim_sgn] at hF hM
    obtain ⟨w1, w2, w3⟩ := hw
    ext
    · simp [Loads.mirror, w1, T]
    · simp [Loads.mirror, w2, T]
    · simp [Loads.mirror, w3, T]
    · simp [Loads.mirror, hF.1]
    · simp [Loads.mirror, hF.2.1]
    · simp [Loads.mirror, hF.2.2]
    · simp [Loads.mirror, hM.1]
    · simp [Loads.mirror, hM.2.1]
    · simp [Loads.mirror, hM.2.2]
  refine ⟨h.mono fun R R' _ _ hi => ⟨key hi.inviscid hi.windI, key hi.viscous hi.windV, key hi.total hi.windT,
    hi.sameSections, ?_, ?_⟩, ?_⟩
  · intro i
    simpa [T] using hi.gamma i
  · have := hi.LD (by simp [T])
    simpa [T] using this
  · rw [llSolve_ctrl_after _ _ _ _ hd, llSolve_ctrl_after _ _ _ _ hd']
    revert harr
    generalize arrOf (g.geom cg) d = r
    generalize arrOf (g'.geom cg') (d.mirror.reindex σ) = r'
    intro harr
    cases r <;> cases r' <;> simp only [Outcome] at harr
    · exact hC
    · exact hctrl

/-- **C26** (aircraft). Build an aircraft twice, the second time with mirrored calls (left and right exchanged, lateral
positions negated).  The second one can be discretised iff the first one can, with the same reference area; and a solve
of the second one with mirrored flow and mirrored controls keeps `FL, FD, FX, FZ, MY` and negates `FS, FY, MX, MZ` in
all three result groups; `σ` tells which section is the mirror image of which. -/
theorem C26_plane (nm : String) (pos : Option V3) (ops : List PlaneOp) (cosine : Bool) :
    ((∃ g, mkGrid (built nm pos ops) cosine = .ok g) ↔
      ∃ g', mkGrid (built nm (pos.map mir) (ops.map PlaneOp.mirror)) cosine = .ok g') ∧
    ∀ g g' : Grid, mkGrid (built nm pos ops) cosine = .ok g →
      mkGrid (built nm (pos.map mir) (ops.map PlaneOp.mirror)) cosine = .ok g' →
      g'.refArea = g.refArea ∧
      ∃ σ : Fin g.data.length ≃ Fin g'.data.length,
        (∀ i, (g'.data.get (σ i)).rcp = mir (g.data.get i).rcp) ∧
        ∀ (d : AeroDict (Fin g.data.length)) (c : Option CtrlDict), d.truthy = true →
        Outcome (fun R R' => R'.inviscid = R.inviscid.mirror ∧ R'.viscous = R.viscous.mirror ∧
            R'.total = R.total.mirror ∧ SameSections σ R R' ∧ (∀ i, R'.gamma (σ i) = R.gamma i) ∧ R'.LD = R.LD)
          (llSolve (g.geom (built nm pos ops).cg) (LLState.init _) "linear" (some d) c).1
          (llSolve (g'.geom (built nm (pos.map mir) (ops.map PlaneOp.mirror)).cg) (LLState.init _) "linear"
            (some (d.mirror.reindex σ)) (c.map CtrlDict.mirror)).1 := by
  have hm := built_mirror nm pos ops
  generalize built nm pos ops = p at *
  generalize built nm (pos.map mir) (ops.map PlaneOp.mirror) = p' at *
  refine ⟨⟨fun ⟨g, hg⟩ => hm.exists_grid hg, fun ⟨g, hg⟩ => hm.symm.exists_grid hg⟩, fun g g' hg hg' => ?_⟩
  obtain ⟨h1, h2⟩ := hm.grids hg hg'
  obtain ⟨σ, hσ⟩ := h1.equiv
  exact ⟨h2, σ, fun i => by simpa using (hσ i).image.rcp, fun d c hd =>
    (llSolve_mirrored σ hσ hm.cg d c hd ⟨fun _ => rfl, fun _ => rfl⟩).1⟩

-- the aircraft `unitPlane` has a grid, and its solve succeeds with a non-zero force
example (c : Bool) : ∃ g, mkGrid (built "unit" none unitOps) c = .ok g ∧ ∀ st : LLState (Fin g.data.length),
    ∃ R, (llSolve (g.geom unitPlane.cg) st "linear" (some (unitAero _)) (some exCtrl)).1 = .ok R ∧ R.inviscid.FZ ≠ 0 :=
  unit_nontrivial c

end Verif
