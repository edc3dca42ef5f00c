import Verif.Thm.CraftDerivs

/-!
# Displacing an aircraft with wings and propellers (C127)
-/

namespace Verif
open V3 Act

/-- everything is displaced by `δ` -/
noncomputable def moveScl (δ : V3) : Scl := ⟨1, 1, 1, 0, one_pos, one_pos, δ⟩

theorem moveLoads (δ : V3) (t : Loads) : t.sim (moveScl δ) = t := by
  ext <;> simp [Loads.sim, moveScl, Scl.a, cross]

theorem fieldSim_move {ι ι' : Type} (δ : V3) (σ : ι ≃ ι') (f : ι → ℝ × V3) : fieldSim (moveScl δ) σ f = fun i' => f (σ.symm i') := by
  funext i; simp [fieldSim, moveScl]

theorem flowSim_move {ι ι' : Type} [Fintype ι] [DecidableEq ι] [Fintype ι'] [DecidableEq ι'] (δ : V3) (σ : ι ≃ ι') {d : AeroDict ι}
    (hd : d.truthy = true) : FlowSim (moveScl δ) d (d.reindex σ) :=
  ⟨hd, by rw [truthy_reindex, hd], by simp [moveScl, AeroDict.reindex], by simp [moveScl, AeroDict.reindex], rfl, rfl⟩

theorem runsAlike_move {ι ι' : Type} [Fintype ι] [DecidableEq ι] [Fintype ι'] [DecidableEq ι'] (σ : ι ≃ ι') (simps : List ℝ → List ℝ → ℝ)
    (fuel : ℕ) (δ : V3) {d : AeroDict ι} (hd : d.truthy = true) (ps : PropDict) :
    RunsAlike simps fuel (moveScl δ) (fun st st' => st' = st) d (d.reindex σ) ps ps := by
  intro sl sl' h
  unfold slotRun
  rw [h.name, h.st]
  cases localPS ps sl.name with
  | error e => exact ⟨rfl, rfl⟩
  | ok pd => exact runProp_cg rfl rfl rfl h.model simps fuel (flowSim_move δ σ hd) pd sl.st

/-! ### The displaced aircraft -/

/-- the propeller `δ` further -/
noncomputable def PropGeom.moved (δ : V3) (q : PropGeom) : PropGeom := { q with position := q.position + δ }

/-- wings, propellers and CG `δ` further -/
noncomputable def Plane.carried (δ : V3) (p : Plane) : Plane :=
  { p with position := some (p.getPosition + δ), cg := p.cg + δ, props := p.props.map fun kv => (kv.1, kv.2.moved δ) }

/-- wings and propellers `δ` further -/
noncomputable def Plane.relocated (δ : V3) (p : Plane) : Plane :=
  { p.moved δ with props := p.props.map fun kv => (kv.1, kv.2.moved δ) }

theorem relocated_run (δ : V3) (p : Plane) (op : PlaneOp) : (op.moveProp δ).run (p.relocated δ) = (op.run p).relocated δ := by
  cases op with
  | addWing name parent location side d =>
    simp only [PlaneOp.moveProp, PlaneOp.run, addWing_eq]
    cases hw : mkWing name side d with
    | error e => rfl
    | ok w =>
      simp only [Plane.relocated, Plane.moved]
      cases ht : targetOf (dictSet p.wings name p.heap.length) parent <;> rfl
  | airfoil id name e props =>
    simp only [PlaneOp.moveProp, PlaneOp.run, Plane.wingAirfoil]
    cases mkAirfoil name props <;> rfl
  | controlSurface id props =>
    simp only [PlaneOp.moveProp, PlaneOp.run, Plane.wingCtrl]
    cases mkCtrlSurf props <;> rfl
  | addProp name d =>
    simp only [PlaneOp.run, PlaneOp.moveProp, Plane.addProp, Plane.relocated]
    have : mkProp name { d with position := some (d.position.getD 0 + δ) } = (mkProp name d).moved δ := rfl
    rw [this, ← dictSet_mapVal (PropGeom.moved δ) p.props name]
    rfl
  | propAirfoil name af props =>
    simp only [PlaneOp.run, PlaneOp.moveProp, Plane.propAirfoil]
    cases mkAirfoil af props with
    | error er => rfl
    | ok a =>
      simp only [Plane.relocated]
      rw [dictGet_mapVal]
      cases dictGet p.props name with
      | none => rfl
      | some q =>
        simp only [Option.map_some]
        rw [dictSet_mapVal (PropGeom.moved δ) p.props name]
        rfl
  | cgLocation x y z => rfl
  | setRefLengths a b => rfl

theorem relocated_runOps (δ : V3) (ops : List PlaneOp) : ∀ p : Plane,
    runOps (p.relocated δ) (ops.map (PlaneOp.moveProp δ)) = (runOps p ops).relocated δ := by
  induction ops with
  | nil => intro p; rfl
  | cons op t ih =>
    intro p
    simp only [runOps, List.map_cons, List.foldl_cons] at ih ⊢
    rw [relocated_run, ih]

theorem built_relocated (δ : V3) (nm : String) (pos : Option V3) (ops : List PlaneOp) :
    built nm (some (pos.getD 0 + δ)) (ops.map (PlaneOp.moveProp δ)) = (built nm pos ops).relocated δ := by
  unfold built
  rw [← relocated_runOps]
  rfl

/-! ### Wings -/

theorem llSolve_move_sections {ι ι' : Type} [Fintype ι] [DecidableEq ι] [Fintype ι'] [DecidableEq ι'] {G : LLGeom ι} {G' : LLGeom ι'} (σ : ι ≃ ι') {δ : V3}
    (hS : ∀ i, G'.S (σ i) = (G.S i).translate δ) (hcg : G'.cg = G.cg + δ) (d : AeroDict ι) (hd : d.truthy = true) (c : Option CtrlDict)
    {st : LLState ι} {st' : LLState ι'} (hC : CtrlImage σ st.ctrl st'.ctrl) :
    Outcome (fun R R' => R'.total = R.total.sim (moveScl δ) ∧ SameSections σ R R') (llSolve G st "linear" (some d) c).1
      (llSolve G' st' "linear" (some (d.reindex σ)) c).1 ∧
    CtrlImage σ (llSolve G st "linear" (some d) c).2.ctrl (llSolve G' st' "linear" (some (d.reindex σ)) c).2.ctrl := by
  let T := idSim 1 one_pos δ 1 one_pos 1
  have hd' : (d.reindex σ).truthy = true := by rw [truthy_reindex, hd]
  have harr : Outcome (ArrImage T σ) (arrOf G d) (arrOf G' (d.reindex σ)) :=
    arrOf_image T σ (by simp [AeroDict.hasRates, AeroDict.reindex])
      (fun i => by
        rw [hS, hcg]
        simp [AeroDict.reindex, T, Section.translate])
      (by simp [T, AeroDict.reindex]) (fun V => by simp [T, AeroDict.reindex])
      (fun _ => by simp [T, AeroDict.reindex]) (by simp [T, AeroDict.reindex])
  have hctrl : CtrlImage σ (processCtrl G st c).ctrl (processCtrl G' st' c).ctrl := by
    unfold processCtrl
    cases c with
    | none => exact hC
    | some c =>
      simp only
      split
      · constructor <;> intro i <;> simp only [hS] <;> rfl
      · exact hC
  constructor
  · have h := llSolve_image T σ (G := G) (G' := G') (d := d) (d' := d.reindex σ) (c := c) (c' := c) (τ := 1) (by simp [T]) (by simp)
      (fun i => by rw [hS]; constructor <;> simp [T, Section.translate])
      (by rw [hcg]; simp [T]) hd hd' harr st st' hctrl
    refine h.mono fun R R' _ _ hi => ⟨?_, hi.sameSections⟩
    have := (hi.loadsScaled (fun a => by simp [T]) (by simp [T])).total
    rw [this, moveLoads]
    ext <;> simp [T, Loads.scale]
  · rw [llSolve_ctrl_after _ _ _ _ hd, llSolve_ctrl_after _ _ _ _ hd']
    revert harr
    generalize arrOf G d = A
    generalize arrOf G' _ = A'
    intro harr
    rcases A with e | a <;> rcases A' with e' | a' <;> simp only [Outcome] at harr
    · exact hC
    · exact hctrl

theorem llSolve_move {ι ι' : Type} [Fintype ι] [DecidableEq ι] [Fintype ι'] [DecidableEq ι'] {G : LLGeom ι} {G' : LLGeom ι'} (σ : ι ≃ ι') {δ : V3}
    (hS : ∀ i, G'.S (σ i) = (G.S i).translate δ) (hcg : G'.cg = G.cg + δ) (d : AeroDict ι) (hd : d.truthy = true) (c : Option CtrlDict)
    {st : LLState ι} {st' : LLState ι'} (hC : CtrlImage σ st.ctrl st'.ctrl) :
    Outcome (fun R R' => R'.total = R.total.sim (moveScl δ)) (llSolve G st "linear" (some d) c).1
      (llSolve G' st' "linear" (some (d.reindex σ)) c).1 ∧
    CtrlImage σ (llSolve G st "linear" (some d) c).2.ctrl (llSolve G' st' "linear" (some (d.reindex σ)) c).2.ctrl :=
  have h := llSolve_move_sections σ hS hcg d hd c hC
  ⟨h.1.mono fun _ _ _ _ k => k.1, h.2⟩

theorem refLengths_carried (δ : V3) (p : Plane) (Sw : ℝ) : refLengths (p.carried δ) Sw = refLengths p Sw := rfl

theorem mkGrid_carried (δ : V3) (p : Plane) (c : Bool) : mkGrid (p.carried δ) c = mkGrid (p.moved δ) c :=
  mkGrid_congr (p := p.carried δ) (q := p.moved δ) rfl rfl rfl c

theorem mkWingPart_carried (δ : V3) {p : Plane} (hp : AllConnected p) :
    (∃ w, mkWingPart p = .ok w) ↔ ∃ w', mkWingPart (p.carried δ) = .ok w' := by
  have hm := moved_gridMap δ hp true
  unfold mkWingPart
  rw [show (p.carried δ).wings = p.wings from rfl, mkGrid_carried]
  by_cases h0 : p.wings = []
  · rw [if_pos h0, if_pos h0]
  · rw [if_neg h0, if_neg h0]
    cases hg : mkGrid p true with
    | error e =>
      cases hg' : mkGrid (p.moved δ) true with
      | error e' => simp [bind, Except.bind]
      | ok g' => obtain ⟨g, hg2⟩ := hm.exists_iff.2 ⟨g', hg'⟩; rw [hg] at hg2; cases hg2
    | ok g =>
      obtain ⟨g', hg'⟩ := hm.exists_iff.1 ⟨g, hg⟩
      obtain ⟨-, -, h3⟩ := hm.grids hg hg'
      rw [hg']
      simp only [bind, Except.bind]
      rw [h3, refLengths_carried, one_mul]
      cases refLengths p g.refArea <;> simp [pure, Except.pure]

/-! ### Propellers -/

/-- the propeller model of the displaced aircraft -/
noncomputable def PropM.carried {ι ι' : Type} (δ : V3) (pts' : Option (ι' → V3)) (M : PropM ι) : PropM ι' :=
  { geom := M.geom.moved δ, stn := M.stn, motor := M.motor, pts := pts', cg := M.cg + δ, units := M.units }

theorem mkPropM_moved {ι : Type} (δ : V3) (table : String → ℝ → ℝ) (q : PropGeom) (cg cg' : V3) (u : Option String) (pts : Option (ι → V3)) :
    mkPropM table (q.moved δ) cg' u pts =
      (mkPropM table q cg u pts).map fun (M : PropM ι) => ⟨M.geom.moved δ, M.stn, M.motor, M.pts, cg', M.units⟩ := by
  have e1 : bladeAf (q.moved δ) = bladeAf q := rfl
  have e2 : ∀ z r a, bladePitch table (q.moved δ) z r a = bladePitch table q z r a := fun _ _ _ => rfl
  have e3 : ∀ z, bladeChord table (q.moved δ) z = bladeChord table q z := fun _ => rfl
  have e4 : ∀ i, zetaAt (q.moved δ) i = zetaAt q i := fun _ => rfl
  have e5 : ∀ a i, stnAt table (q.moved δ) a i = stnAt table q a i := fun _ _ => rfl
  unfold mkPropM
  simp only [e1, e2, e3, e4, e5, show (q.moved δ).diameter = q.diameter from rfl, show (q.moved δ).nodes = q.nodes from rfl,
    show (q.moved δ).motor = q.motor from rfl]
  split
  · rfl
  · split
    · rfl
    · cases bladeAf q with
      | error e => rfl
      | ok af =>
        simp only [bind, Except.bind]
        cases bladePitch table q (zetaAt q 0) (zetaAt q 0 * q.diameter * 0.5) (af 0).aL0 with
        | error e => rfl
        | ok _ =>
          simp only
          cases bladeChord table q (zetaAt q 0) with
          | error e => rfl
          | ok _ =>
            simp only
            cases calcMotor q.motor with
            | error e => rfl
            | ok m =>
              simp only
              split <;> rfl

theorem mkPropM_holds_cg {ι : Type} (table : String → ℝ → ℝ) {q : PropGeom} {cg : V3} {u : Option String} {pts : Option (ι → V3)} {M : PropM ι}
    (h : mkPropM table q cg u pts = .ok M) : M.cg = cg := by
  have := mkPropM_moved 0 table q cg cg u pts
  have e : q.moved 0 = q := by simp [PropGeom.moved]
  rw [e, h] at this
  simp only [Except.map, Except.ok.injEq] at this
  rw [this]

theorem mkPropM_carried {ι ι' : Type} (δ : V3) (table : String → ℝ → ℝ) (q : PropGeom) (cg : V3) (u : Option String)
    (pts : Option (ι → V3)) (pts' : Option (ι' → V3)) :
    mkPropM table (q.moved δ) (cg + δ) u pts' = (mkPropM table q cg u pts).map (PropM.carried δ pts') := by
  rw [mkPropM_pts table (q.moved δ) (cg + δ) u pts pts', mkPropM_moved δ table q cg (cg + δ) u pts]
  cases hM : mkPropM table q cg u pts with
  | error e => rfl
  | ok M => simp [Except.map, PropM.carried, mkPropM_holds_cg table hM]

theorem openProps_carried {ι ι' : Type} (table : String → ℝ → ℝ) (mem : String → ℕ → ℕ → Option ℝ) (δ : V3) (p : Plane)
    (pts : Option (ι → V3)) (pts' : Option (ι' → V3)) :
    openProps table mem (p.carried δ) pts' =
      (openProps table mem p pts).map fun s => s.map fun sl =>
        { name := sl.name, model := sl.model.carried δ pts', st := sl.st } := by
  have hU : (p.carried δ).getUnits = p.getUnits := rfl
  have key : ∀ (L : List PropGeom) (d : List (String × PropM ι)),
      (L.map (PropGeom.moved δ)).foldlM (fun (d : List (String × PropM ι')) q => do
        let u ← (p.carried δ).getUnits
        let m ← mkPropM table q (p.carried δ).cg u pts'
        return dictSet d q.name m) (d.map fun (kv : String × PropM ι) => (kv.1, kv.2.carried δ pts')) =
      (L.foldlM (fun (d : List (String × PropM ι)) q => do
        let u ← p.getUnits
        let m ← mkPropM table q p.cg u pts
        return dictSet d q.name m) d).map fun (d : List (String × PropM ι)) => d.map fun (kv : String × PropM ι) => (kv.1, kv.2.carried δ pts') := by
    intro L d
    rw [List.foldlM_map]
    refine foldlM_image (fun (d : List (String × PropM ι)) => d.map fun (kv : String × PropM ι) => (kv.1, kv.2.carried δ pts')) ?_ L d
    intro d q
    rw [hU, show (p.carried δ).cg = p.cg + δ from rfl]
    cases p.getUnits with
    | error e => rfl
    | ok u =>
      simp only [bind, Except.bind]
      rw [mkPropM_carried δ table q p.cg u pts pts']
      cases mkPropM table q p.cg u pts with
      | error e => rfl
      | ok m =>
        simp only [Except.map, pure, Except.pure]
        exact congrArg Except.ok (dictSet_map (fun _ (a : PropM ι) => a.carried δ pts') d q.name m).symm
  have k := key (p.props.map Prod.snd) []
  unfold openProps
  have hp : (p.carried δ).props.map Prod.snd = (p.props.map Prod.snd).map (PropGeom.moved δ) := by
    show (p.props.map fun kv => (kv.1, kv.2.moved δ)).map Prod.snd = _
    rw [List.map_map, List.map_map]; rfl
  rw [hp]
  rw [List.map_nil] at k
  rw [k]
  cases ((p.props.map Prod.snd).foldlM (fun d q => do
        let u ← p.getUnits
        let m ← mkPropM table q p.cg u pts
        return dictSet d q.name m) ([] : List (String × PropM ι)) : Except PyErr (List (String × PropM ι))) with
  | error e => rfl
  | ok d =>
    simp only [Except.map, bind, Except.bind, pure, Except.pure, List.map_map]
    rfl

theorem simM_carried {ι ι' : Type} (δ : V3) (pts' : Option (ι' → V3)) (M : PropM ι) : SimM (moveScl δ) M (M.carried δ pts') where
  nodes := rfl
  d := by simp [moveScl]; rfl
  blades := rfl
  stn := by funext i; simp [moveScl, Stn.scale, PropM.carried]
  motor := rfl
  units := rfl
  pos := by simp [moveScl, PropM.carried, PropGeom.moved]
  fwd := rfl
  rot := rfl
  cg := by simp [moveScl, PropM.carried]

theorem open_carried {table : String → ℝ → ℝ} {mem : String → ℕ → ℕ → Option ℝ} (δ : V3) {p : Plane} (hc : AllConnected p) :
    (∃ o, openMachUp table mem p = .ok o) ↔ ∃ o', openMachUp table mem (p.carried δ) = .ok o' := by
  unfold openMachUp
  have hp : (p.carried δ).props = [] ↔ p.props = [] := by
    show p.props.map _ = [] ↔ _
    simp
  have h := mkWingPart_carried δ hc
  cases hw : mkWingPart p with
  | error e =>
    cases hw' : mkWingPart (p.carried δ) with
    | error e' => simp [bind, Except.bind]
    | ok w' => rw [hw, hw'] at h; simp at h
  | ok w =>
    obtain ⟨w', hw'⟩ := h.1 ⟨w, hw⟩
    rw [hw']
    simp only [bind, Except.bind, hp]
    by_cases h0 : p.props = []
    · simp [h0, pure, Except.pure]
    · rw [if_neg h0, if_neg h0, openProps_carried table mem δ p (pointsOf w) (pointsOf w')]
      cases openProps table mem p (pointsOf w) <;> simp [Except.map, pure, Except.pure]

/-- the objects for the two aircraft -/
theorem objSim_carried (δ : V3) {table : String → ℝ → ℝ} {mem : String → ℕ → ℕ → Option ℝ} {p : Plane} (hc : AllConnected p) {o o' : Analyser}
    (ho : openMachUp table mem p = .ok o) (ho' : openMachUp table mem (p.carried δ) = .ok o') :
    ∃ σ : Fin (sectionsOf o.wing) ≃ Fin (sectionsOf o'.wing), (∀ i, (σ i).val = i.val) ∧
      ObjSim (moveScl δ) o o' p (p.carried δ) σ ∧
      List.Forall₂ (SlotSim (moveScl δ) fun st st' => st' = st) (o.slots.getD []) (o'.slots.getD []) ∧
      (o.wing.isSome = true → (∀ i, (geomOf (p.cg + δ) o'.wing).S (σ i) = ((geomOf p.cg o.wing).S i).translate δ) ∧
        (geomOf (p.cg + δ) o'.wing).cg = (geomOf p.cg o.wing).cg + δ) := by
  obtain ⟨hw, hs⟩ := slots_cases ho
  obtain ⟨hw', hs'⟩ := slots_cases ho'
  have hσ : ∃ σ : Fin (sectionsOf o.wing) ≃ Fin (sectionsOf o'.wing), (∀ i, (σ i).val = i.val) ∧
      o'.wing.isSome = o.wing.isSome ∧
      pointsOf o'.wing = (pointsOf o.wing).map (fun f i' => f (σ.symm i') + δ) ∧
      (o.wing.isSome = true → (∀ i, (geomOf (p.cg + δ) o'.wing).S (σ i) = ((geomOf p.cg o.wing).S i).translate δ) ∧
        (geomOf (p.cg + δ) o'.wing).cg = (geomOf p.cg o.wing).cg + δ) := by
    obtain ⟨w, sl⟩ := o
    obtain ⟨w', sl'⟩ := o'
    simp only at hw hw'
    have hcase := wing_isSome hw
    have hcase' := wing_isSome hw'
    rw [show (p.carried δ).wings = p.wings from rfl] at hcase'
    rcases w with _ | W
    · rcases w' with _ | W'
      · exact ⟨Equiv.refl (Fin 0), fun i => i.elim0, rfl, rfl, fun h => by simp at h⟩
      · simp at hcase hcase'; exact absurd hcase hcase'
    · rcases w' with _ | W'
      · simp at hcase hcase'; exact absurd hcase' hcase
      · have hg := wing_grid hw
        have hg' := wing_grid hw'
        rw [mkGrid_carried] at hg'
        obtain ⟨h1, -⟩ := (moved_gridMap δ hc true).grids hg hg'
        have e : W.grid.data.length = W'.grid.data.length := by rw [h1, List.length_map]
        have hsec : ∀ i, W'.grid.data.get (finCongr e i) = (W.grid.data.get i).moved δ := by
          intro i; simp [h1]
        refine ⟨finCongr e, fun i => rfl, rfl, ?_, fun _ => ⟨fun i => ?_, rfl⟩⟩
        · simp only [pointsOf, Option.map_some, Option.some.injEq]
          funext i'
          have := hsec ((finCongr e).symm i')
          have e2 : (finCongr e) ((finCongr e).symm i') = i' := (finCongr e).apply_symm_apply i'
          exact (congrArg (fun i => (W'.grid.data.get i).rcp) e2).symm.trans (congrArg (fun x : GridSec => x.rcp) this)
        · show (W'.grid.data.get (finCongr e i)).toSection = _
          rw [hsec i]
          rfl
  obtain ⟨σ, g0, g2, g3, g4⟩ := hσ
  have hpe : (p.carried δ).props = [] ↔ p.props = [] := by
    show p.props.map _ = [] ↔ _
    simp
  have hslots : o'.slots.isSome = o.slots.isSome ∧
      List.Forall₂ (SlotSim (moveScl δ) fun st st' => st' = st) (o.slots.getD []) (o'.slots.getD []) := by
    rcases hs with ⟨q, q1⟩ | ⟨q, s, q1, q2⟩ <;> rcases hs' with ⟨q', q1'⟩ | ⟨q', s', q1', q2'⟩
    · rw [q1, q1']; exact ⟨rfl, .nil⟩
    · exact absurd (hpe.2 q) q'
    · exact absurd (hpe.1 q') q
    · rw [q1, q1']
      refine ⟨rfl, ?_⟩
      rw [openProps_carried table mem δ p (pointsOf o.wing) (pointsOf o'.wing), q2] at q2'
      cases q2'
      simp only [Option.getD_some]
      clear q1 q2 q1'
      induction s with
      | nil => exact .nil
      | cons a t ih => exact .cons ⟨rfl, simM_carried δ _ _, rfl⟩ ih
  have hO : ObjSim (moveScl δ) o o' p (p.carried δ) σ :=
    { props := by
        show (p.props.map _).isEmpty = _
        simp
      wings := rfl
      cg := by simp [moveScl, Plane.carried]
      wing := g2
      slots := hslots.1
      points := by simpa [moveScl] using g3 }
  exact ⟨σ, g0, hO, hslots.2, g4⟩

/-- one `solve` on the two aircraft -/
theorem muSolve_carried (δ : V3) {p : Plane} {o o' : Analyser} {σ : Fin (sectionsOf o.wing) ≃ Fin (sectionsOf o'.wing)}
    (hO : ObjSim (moveScl δ) o o' p (p.carried δ) σ)
    (g4 : o.wing.isSome = true → (∀ i, (geomOf (p.cg + δ) o'.wing).S (σ i) = ((geomOf p.cg o.wing).S i).translate δ) ∧
        (geomOf (p.cg + δ) o'.wing).cg = (geomOf p.cg o.wing).cg + δ)
    {simps : List ℝ → List ℝ → ℝ} {fuel : ℕ} {bad : _} {bad' : _} (w : World (o.backend p simps fuel bad))
    (w' : World (o'.backend (p.carried δ) simps fuel bad')) {d : AeroDict (Fin (sectionsOf o.wing))} (ht : d.truthy = true)
    (hd : w.aero = some d) (hd' : w'.aero = some (d.reindex σ)) (hc : w'.ctrl = w.ctrl) (ps : Option PropDict)
    (hst : StSim (moveScl δ) (fun st st' => st' = st) σ w.st w'.st) :
    Outcome (fun T T' => T' = T) (muSolve ps w).1 (muSolve ps w').1 ∧
    StSim (moveScl δ) (fun st st' => st' = st) σ (muSolve ps w).2.st (muSolve ps w').2.st := by
  have := hO.muSolve (P := fun st st' => st' = st) (w := w) (w' := w')
    (d := d) (d' := d.reindex σ) (c := w.ctrl) (flowSim_move δ σ ht) hd rfl hd' hc ps
    ps (runsAlike_move σ simps fuel δ ht _) hst
    (by
      rintro f f' st st' hff hC hi
      have hf : ({ d.reindex σ with localState := f' } : AeroDict (Fin (sectionsOf o'.wing))) =
          ({ d with localState := f } : AeroDict (Fin (sectionsOf o.wing))).reindex σ ∧
          ({ d with localState := f } : AeroDict (Fin (sectionsOf o.wing))).truthy = true := by
        rcases hff with ⟨rfl, rfl⟩ | ⟨g, rfl, rfl⟩
        · exact ⟨rfl, ht⟩
        · refine ⟨?_, by simp [AeroDict.truthy]⟩
          rw [fieldSim_move]
          rfl
      rw [hf.1]
      exact llSolve_move σ (g4 hi).1 (g4 hi).2 _ hf.2 w.ctrl hC)
  refine ⟨this.1.mono ?_, this.2⟩
  rintro T T' - - rfl
  exact moveLoads δ T

/-- **C127.** Build an aircraft twice, the second time with the position of the aircraft and that of every propeller displaced by
`δ` (and every wing to be connected to exists), with its CG displaced by `δ` as well.  A `MachUp` object can be constructed for the second one
iff it can for the first one.  Make the same sequence of `solve` calls on both, with any flow, rotation rates, controls and propeller
states.  Each call on the second one fails with the same exception as the one on the first one, or gives the same forces and moments. -/
theorem C127_displaced (table : String → ℝ → ℝ) (mem : String → ℕ → ℕ → Option ℝ) (simps : List ℝ → List ℝ → ℝ) (fuel : ℕ)
    (nm : String) (pos : Option V3) (ops : List PlaneOp) (hc : ParentsAdded ops) (units : Option (Option String)) (cg δ : V3)
    (p p' : Plane) (hp : p = { built nm pos ops with units, cg })
    (hp' : p' = { built nm (some (pos.getD 0 + δ)) (ops.map (PlaneOp.moveProp δ)) with units, cg := cg + δ }) :
    ((∃ o, openMachUp table mem p = .ok o) ↔ ∃ o', openMachUp table mem p' = .ok o') ∧
    ∀ o o' : Analyser, openMachUp table mem p = .ok o → openMachUp table mem p' = .ok o' →
      ∃ σ : Fin (sectionsOf o.wing) ≃ Fin (sectionsOf o'.wing), (∀ i, (σ i).val = i.val) ∧
        ∀ (bad : _) (bad' : _) (calls : List (AeroDict (Fin (sectionsOf o.wing)) × Option CtrlDict × Option PropDict)),
          (∀ c ∈ calls, c.1.truthy = true) →
          List.Forall₂ (Outcome fun T T' => T' = T)
            (solveSeq (o.fresh p simps fuel bad none none) (calls.map fun c => ⟨some c.1, c.2.1, c.2.2⟩))
            (solveSeq (o'.fresh p' simps fuel bad' none none) (calls.map fun c => ⟨some (c.1.reindex σ), c.2.1, c.2.2⟩)) := by
  have hcon : AllConnected p := by
    rw [hp]; exact allConnected_of (nm := nm) (pos := pos) hc
  have hpe : p' = p.carried δ := by
    rw [hp, hp', built_relocated]; rfl
  clear hp hp'
  subst hpe
  refine ⟨open_carried δ hcon, fun o o' ho ho' => ?_⟩
  obtain ⟨σ, g0, hO, hslots, g4⟩ := objSim_carried δ hcon ho ho'
  refine ⟨σ, g0, fun bad bad' calls hd => ?_⟩
  have key : ∀ (calls : List (AeroDict (Fin (sectionsOf o.wing)) × Option CtrlDict × Option PropDict)) (w : World (o.backend p simps fuel bad))
      (w' : World (o'.backend (p.carried δ) simps fuel bad')),
      (∀ c ∈ calls, c.1.truthy = true) → StSim (moveScl δ) (fun st st' => st' = st) σ w.st w'.st →
      List.Forall₂ (Outcome fun T T' => T' = T) (solveSeq w (calls.map fun c => ⟨some c.1, c.2.1, c.2.2⟩))
        (solveSeq w' (calls.map fun c => ⟨some (c.1.reindex σ), c.2.1, c.2.2⟩)) := by
    intro calls
    induction calls with
    | nil => intro w w' _ _; exact .nil
    | cons c t ih =>
      intro w w' hd hst
      have := muSolve_carried δ hO g4 { w with aero := some c.1, ctrl := c.2.1 }
        { w' with aero := some (c.1.reindex σ), ctrl := c.2.1 } (hd c (by simp)) rfl rfl rfl c.2.2 hst
      exact .cons this.1 (ih _ _ (fun c hc => hd c (by simp [hc])) this.2)
  exact key calls _ _ hd ⟨⟨fun _ => rfl, fun _ => rfl⟩, hslots⟩

theorem rotor_connected : ParentsAdded rotorOps := by
  intro pre name parent location side d post h
  have : (.addWing name (some parent) location side d : PlaneOp) ∈ rotorOps := by rw [h]; simp
  simp [rotorOps] at this

/-- C127: a wingless aircraft with one propeller, and the same aircraft elsewhere: both solves succeed with the same moment -/
example : ∃ (mem : String → ℕ → ℕ → Option ℝ) (o o' : Analyser), openMachUp (fun _ _ => 0) mem rotor = .ok o ∧
    openMachUp (fun _ _ => 0) mem
      { built "rotor" (some ⟨1, 2, 3⟩) (rotorOps.map (PlaneOp.moveProp ⟨1, 2, 3⟩)) with units := some none, cg := ⟨1, 2, 3⟩ } = .ok o' ∧
    ∃ σ : Fin (sectionsOf o.wing) ≃ Fin (sectionsOf o'.wing), ∀ bad bad', ∃ T,
      (muSolve (some [("J", .num 0.5)]) (o.fresh rotor (fun _ _ => 1) 1 bad (some { Vmag := some 10, rho := some 1 }) none)).1 = .ok T ∧
      (muSolve (some [("J", .num 0.5)]) (o'.fresh
        { built "rotor" (some ⟨1, 2, 3⟩) (rotorOps.map (PlaneOp.moveProp ⟨1, 2, 3⟩)) with units := some none, cg := ⟨1, 2, 3⟩ } (fun _ _ => 1) 1
        bad' (some (({ Vmag := some 10, rho := some 1 } : AeroDict _).reindex σ)) none)).1 = .ok T ∧ T.MX ≠ 0 := by
  obtain ⟨mem, o, ho, h⟩ := rotor_solve
  have hC := C127_displaced (fun _ _ => 0) mem (fun _ _ => 1) 1 "rotor" none rotorOps rotor_connected (some none) 0 ⟨1, 2, 3⟩ rotor
    { built "rotor" (some ⟨1, 2, 3⟩) (rotorOps.map (PlaneOp.moveProp ⟨1, 2, 3⟩)) with units := some none, cg := ⟨1, 2, 3⟩ } rfl
    (by simp)
  obtain ⟨o', ho'⟩ := hC.1.1 ⟨o, ho⟩
  obtain ⟨σ, -, hk⟩ := hC.2 o o' ho ho'
  refine ⟨mem, o, o', ho, ho', σ, fun bad bad' => ?_⟩
  obtain ⟨T, w', hT, hx⟩ := h bad
  have h2 := (List.forall₂_cons.1 (hk bad bad' [({ Vmag := some 10, rho := some 1 }, none, some [("J", .num 0.5)])] (by
    simp [AeroDict.truthy]))).1
  have h3 : Outcome (fun T T' : Loads => T' = T)
    (muSolve (some [("J", .num 0.5)]) (o.fresh rotor (fun _ _ => 1) 1 bad (some { Vmag := some 10, rho := some 1 }) none)).1
    (muSolve (some [("J", .num 0.5)]) (o'.fresh
        { built "rotor" (some ⟨1, 2, 3⟩) (rotorOps.map (PlaneOp.moveProp ⟨1, 2, 3⟩)) with units := some none, cg := ⟨1, 2, 3⟩ } (fun _ _ => 1) 1
        bad' (some (({ Vmag := some 10, rho := some 1 } : AeroDict _).reindex σ)) none)).1 := h2
  rw [hT] at h3
  rw [hT]
  revert h3
  generalize (muSolve (some [("J", .num 0.5)]) (o'.fresh _ _ 1 bad' _ none)).1 = y
  intro h3
  cases y with
  | error e => exact absurd h3 (by simp [Outcome])
  | ok T' =>
    have : T' = T := h3
    exact ⟨T, rfl, by rw [this], hx⟩

/-! ### Derivatives -/

theorem similar_one {ι ι' : Type} (σ : ι ≃ ι') (d : AeroDict ι) : d.similar 1 1 1 σ = d.reindex σ := by
  simp [AeroDict.similar, AeroDict.divRates, AeroDict.reindex, AeroDict.faster, AeroDict.scaleSpeed, AeroDict.scaleDensity]

theorem refs_carried (δ : V3) {p : Plane} (hp : AllConnected p) {w w' : Option WingPart} (hw : mkWingPart p = .ok w)
    (hw' : mkWingPart (p.carried δ) = .ok w') :
    (w'.map (·.Sw)).getD 0 = (w.map (·.Sw)).getD 0 ∧ (w'.map (·.lat)).getD 0 = (w.map (·.lat)).getD 0 ∧
    (w'.map (·.long)).getD 0 = (w.map (·.long)).getD 0 := by
  have hm := moved_gridMap δ hp true
  unfold mkWingPart at hw hw'
  rw [show (p.carried δ).wings = p.wings from rfl, mkGrid_carried] at hw'
  by_cases h0 : p.wings = []
  · rw [if_pos h0] at hw hw'
    cases hw; cases hw'
    simp
  · rw [if_neg h0] at hw hw'
    cases hg : mkGrid p true with
    | error e => rw [hg] at hw; cases hw
    | ok g =>
      cases hg' : mkGrid (p.moved δ) true with
      | error e => rw [hg'] at hw'; cases hw'
      | ok g' =>
        obtain ⟨-, -, h3⟩ := hm.grids hg hg'
        rw [hg] at hw
        rw [hg'] at hw'
        simp only [bind, Except.bind] at hw hw'
        rw [h3, refLengths_carried, one_mul] at hw'
        cases hr : refLengths p g.refArea with
        | error e => rw [hr] at hw; cases hw
        | ok x =>
          rw [hr] at hw hw'
          cases hw
          cases hw'
          refine ⟨?_, rfl, rfl⟩
          exact h3.trans (one_mul _)

/-- `solve` on the two aircraft, in lockstep -/
theorem like_muSolve_carried (δ : V3) {p : Plane} {o o' : Analyser} {σ : Fin (sectionsOf o.wing) ≃ Fin (sectionsOf o'.wing)}
    (hO : ObjSim (moveScl δ) o o' p (p.carried δ) σ)
    (g4 : o.wing.isSome = true → (∀ i, (geomOf (p.cg + δ) o'.wing).S (σ i) = ((geomOf p.cg o.wing).S i).translate δ) ∧
        (geomOf (p.cg + δ) o'.wing).cg = (geomOf p.cg o.wing).cg + δ)
    {simps : List ℝ → List ℝ → ℝ} {fuel : ℕ} {bad : _} {bad' : _} (ps : Option PropDict) :
    Lock (LikeWorld (B := o.backend p simps fuel bad) (B' := o'.backend (p.carried δ) simps fuel bad') 1 1 1 σ
        (StSim (moveScl δ) (fun st st' => st' = st) σ)) (SimLoad 1 1 1) (muSolve ps) (muSolve ps) := by
  intro w w' h
  obtain ⟨d, V, r, hd, hV, hr, hd'⟩ := h.aero
  have ht : d.truthy = true := by simp [AeroDict.truthy, hV]
  obtain ⟨g, g', -⟩ := h.given
  rw [similar_one] at hd'
  obtain ⟨h1, h2⟩ := muSolve_carried δ hO g4 w w' ht hd hd' h.ctrl ps h.held
  have hp := hO.propSolve (P := fun st st' => st' = st) (bad := bad) (bad' := bad') (flowSim_move δ σ ht) ps ps
    (runsAlike_move σ simps fuel δ ht _) h.held
  obtain ⟨k1, k2, f, f', hff, k3, k4⟩ := solveParts_keeps (s := moveScl δ) (B := o.backend p simps fuel bad)
    (B' := o'.backend (p.carried δ) simps fuel bad') σ (by show (!(p.carried δ).props.isEmpty) = !p.props.isEmpty; rw [hO.props]) hd hd' hp
  have e1 := muSolve_post (B := o.backend p simps fuel bad) ps g
  have e2 := muSolve_post (B := o'.backend (p.carried δ) simps fuel bad') ps g'
  refine ⟨h1.mono ?_, ?_, ?_, h2⟩
  · rintro T T' - - rfl
    simp [SimLoad, Loads.scale]
  · refine ⟨{ d with localState := f }, V, r, (congrArg World.aero e1).trans k3, hV, hr, (congrArg World.aero e2).trans (k4.trans ?_)⟩
    rw [similar_one]
    rcases hff with ⟨rfl, rfl⟩ | ⟨g, rfl, rfl⟩
    · rfl
    · rw [fieldSim_move]; rfl
  · exact (congrArg World.ctrl e2).trans (k2.trans (h.ctrl.trans (k1.symm.trans (congrArg World.ctrl e1).symm)))

/-- **C127** (derivatives). On the two aircraft of `C127_displaced`, with the same flow (airspeed and density given), controls and
propeller states, each of the derivative methods raises the same exception or returns the same result. -/
theorem C127_derivatives (table : String → ℝ → ℝ) (mem : String → ℕ → ℕ → Option ℝ) (simps : List ℝ → List ℝ → ℝ) (fuel : ℕ)
    (nm : String) (pos : Option V3) (ops : List PlaneOp) (hc : ParentsAdded ops) (units : Option (Option String)) (cg δ : V3)
    (p p' : Plane) (hp : p = { built nm pos ops with units, cg })
    (hp' : p' = { built nm (some (pos.getD 0 + δ)) (ops.map (PlaneOp.moveProp δ)) with units, cg := cg + δ })
    (o o' : Analyser) (ho : openMachUp table mem p = .ok o) (ho' : openMachUp table mem p' = .ok o') :
    ∃ σ : Fin (sectionsOf o.wing) ≃ Fin (sectionsOf o'.wing), (∀ i, (σ i).val = i.val) ∧
      ∀ (bad : _) (bad' : _) (d : AeroDict (Fin (sectionsOf o.wing))) (c : Option CtrlDict) (ps : Option PropDict),
        d.Vmag.isSome → d.rho.isSome →
        let w := o.fresh p simps fuel bad (some d) c
        let w' := o'.fresh p' simps fuel bad' (some (d.reindex σ)) c
        (derivatives ps none w').1 = (derivatives ps none w).1 ∧
        (stabilityDerivatives ps w').1 = (stabilityDerivatives ps w).1 ∧
        (controlDerivatives ps w').1 = (controlDerivatives ps w).1 ∧
        (dampingDerivatives ps w').1 = (dampingDerivatives ps w).1 := by
  have hcon : AllConnected p := by
    rw [hp]; exact allConnected_of (nm := nm) (pos := pos) hc
  have hpe : p' = p.carried δ := by
    rw [hp, hp', built_relocated]; rfl
  clear hp hp'
  subst hpe
  obtain ⟨σ, g0, hO, hslots, g4⟩ := objSim_carried δ hcon ho ho'
  refine ⟨σ, g0, fun bad bad' d c ps hV hr => ?_⟩
  obtain ⟨V, hV⟩ := Option.isSome_iff_exists.1 hV
  obtain ⟨r, hr⟩ := Option.isSome_iff_exists.1 hr
  intro w w'
  have hs := like_muSolve_carried δ hO g4 (simps := simps) (fuel := fuel) (bad := bad) (bad' := bad') ps
  have hA : LikeWorld 1 1 1 σ (StSim (moveScl δ) (fun st st' => st' = st) σ) w w' :=
    ⟨⟨d, V, r, rfl, hV, hr, by rw [similar_one]; rfl⟩, rfl, ⟨fun _ => rfl, fun _ => rfl⟩, hslots⟩
  obtain ⟨hw, -⟩ := slots_cases ho
  obtain ⟨hw', -⟩ := slots_cases ho'
  obtain ⟨r1, r2, r3⟩ := refs_carried δ hcon hw hw'
  have hR : RefSim 1 (o.backend p simps fuel bad) (o'.backend (p.carried δ) simps fuel bad') :=
    ⟨rfl, r1.trans (by rw [one_pow, one_mul]; rfl), r2.trans (one_mul _).symm, r3.trans (one_mul _).symm⟩
  exact ⟨(like_derivatives hs hR one_ne_zero (by norm_num) _ _ hA).1.eq, (like_stab hs hR one_ne_zero (by norm_num) _ _ hA).1.eq,
    (like_cont hs hR one_ne_zero (by norm_num) _ _ hA).1.eq, (like_damp hs hR one_ne_zero (by norm_num) _ _ hA).1.eq⟩

theorem craft_connected : ParentsAdded craftOps := by
  intro pre name parent location side d post h
  have : (.addWing name (some parent) location side d : PlaneOp) ∈ craftOps := by rw [h]; simp
  simp [craftOps, rotorOps, unitOps] at this

/-- C127: an aircraft with a wing and a propeller, and the same aircraft elsewhere -/
example (table : String → ℝ → ℝ) (mem : String → ℕ → ℕ → Option ℝ) (simps : List ℝ → List ℝ → ℝ) (fuel : ℕ) : ∃ o o' : Analyser,
    openMachUp table mem craft = .ok o ∧
    openMachUp table mem
      { built "craft" (some ⟨1, 2, 3⟩) (craftOps.map (PlaneOp.moveProp ⟨1, 2, 3⟩)) with units := some none, cg := craft.cg + ⟨1, 2, 3⟩ } = .ok o' ∧
    sectionsOf o.wing = 2 ∧ ∃ σ : Fin (sectionsOf o.wing) ≃ Fin (sectionsOf o'.wing), ∀ bad bad',
    (derivatives (some [("rot_per_sec", .num 30)]) none
      (o'.fresh { built "craft" (some ⟨1, 2, 3⟩) (craftOps.map (PlaneOp.moveProp ⟨1, 2, 3⟩)) with units := some none, cg := craft.cg + ⟨1, 2, 3⟩ }
        simps fuel bad' (some (({ Vmag := some 10, rho := some 1 } : AeroDict (Fin (sectionsOf o.wing))).reindex σ)) none)).1 =
    (derivatives (some [("rot_per_sec", .num 30)]) none (o.fresh craft simps fuel bad (some { Vmag := some 10, rho := some 1 }) none)).1 := by
  obtain ⟨g, M, hg, ho⟩ := craft_open table mem
  have e : ({ built "craft" (some ⟨1, 2, 3⟩) (craftOps.map (PlaneOp.moveProp ⟨1, 2, 3⟩)) with
      units := some none, cg := craft.cg + ⟨1, 2, 3⟩ } : Plane) =
    { built "craft" (some ((none : Option V3).getD 0 + ⟨1, 2, 3⟩)) (craftOps.map (PlaneOp.moveProp ⟨1, 2, 3⟩)) with
      units := some none, cg := craft.cg + ⟨1, 2, 3⟩ } := by simp
  have hcr : craft = { built "craft" none craftOps with units := some none, cg := craft.cg } := rfl
  obtain ⟨o', ho'⟩ := (C127_displaced table mem simps fuel "craft" none craftOps craft_connected (some none) craft.cg ⟨1, 2, 3⟩
    craft _ hcr e).1.1 ⟨_, ho⟩
  obtain ⟨σ, -, h⟩ := C127_derivatives table mem simps fuel "craft" none craftOps craft_connected (some none) craft.cg ⟨1, 2, 3⟩ craft _ hcr e
    _ o' ho ho'
  exact ⟨_, o', ho, ho', hg, σ, fun bad bad' => (h bad bad' { Vmag := some 10, rho := some 1 } none (some [("rot_per_sec", .num 30)]) rfl rfl).1⟩

end Verif
