import Verif.Lemmas.SolveSim
import Verif.Thm.PlaneSimilar
import Verif.Spec.PropSim
import Verif.Thm.PropMirror

/-!
# Similarity of aircraft with wings and propellers (C122)
-/

namespace Verif
open V3 Act

/-- `l` times as large, `k` times as fast, in air `m` times as dense -/
noncomputable def simScl (l k m : ℝ) (hl : 0 < l) (hk : 0 < k) : Scl := ⟨l, k, m, 0, hl, hk, 0⟩

section
variable {l k : ℝ} (hl : 0 < l) (hk : 0 < k) (m : ℝ)

/-! ### Wings -/

theorem simLoads (t : Loads) : t.sim (simScl l k m hl hk) = t.scale (m * k ^ 2 * l ^ 2) (m * k ^ 2 * l ^ 3) := by
  ext <;> simp only [Loads.sim, simScl, Scl.a, Loads.scale, cross, zero_x, zero_y, zero_z, zero_mul, sub_zero, mul_zero] <;> ring

/-- the dictionary of the similar flight condition -/
noncomputable def AeroDict.similar {ι ι' : Type*} (l k m : ℝ) (σ : ι ≃ ι') (d : AeroDict ι) : AeroDict ι' := ((d.faster k m).divRates l).reindex σ

theorem similar_truthy {ι ι' : Type} [Fintype ι] [DecidableEq ι] [Fintype ι'] [DecidableEq ι'] (σ : ι ≃ ι') (d : AeroDict ι) : (d.similar l k m σ).truthy = d.truthy := by
  unfold AeroDict.similar
  rw [truthy_reindex, truthy_divRates]
  simp [AeroDict.faster, AeroDict.scaleSpeed, AeroDict.scaleDensity, AeroDict.truthy]

theorem flowSim_similar {ι ι' : Type} [Fintype ι] [DecidableEq ι] [Fintype ι'] [DecidableEq ι'] (σ : ι ≃ ι') {d : AeroDict ι} (hd : d.truthy = true) :
    FlowSim (simScl l k m hl hk) d (d.similar l k m σ) :=
  ⟨hd, by rw [similar_truthy, hd], rfl, rfl, rfl, rfl⟩

theorem llSolve_similar_sections {ι ι' : Type} [Fintype ι] [DecidableEq ι] [Fintype ι'] [DecidableEq ι'] {G : LLGeom ι} {G' : LLGeom ι'} (σ : ι ≃ ι')
    (hS : ∀ i, G'.S (σ i) = (G.S i).scaleLength l) (hcg : G'.cg = l • G.cg) (d : AeroDict ι) (hd : d.truthy = true) (c : Option CtrlDict)
    {st : LLState ι} {st' : LLState ι'} (hC : CtrlImage σ st.ctrl st'.ctrl) :
    Outcome (fun R R' => R'.total = R.total.sim (simScl l k m hl hk) ∧ SameSections σ R R') (llSolve G st "linear" (some d) c).1
      (llSolve G' st' "linear" (some (d.similar l k m σ)) c).1 ∧
    CtrlImage σ (llSolve G st "linear" (some d) c).2.ctrl (llSolve G' st' "linear" (some (d.similar l k m σ)) c).2.ctrl := by
  let T := idSim l hl 0 k hk m
  have hl' := hl.ne'
  have hk' := hk.ne'
  have hd' : (d.similar l k m σ).truthy = true := by rw [similar_truthy, hd]
  have harr : Outcome (ArrImage T σ) (arrOf G d) (arrOf G' (d.similar l k m σ)) :=
    arrOf_image T σ (by simp [AeroDict.hasRates, AeroDict.similar, AeroDict.divRates, AeroDict.reindex, AeroDict.faster, AeroDict.scaleSpeed, AeroDict.scaleDensity])
      (fun i => by
        rw [hS, hcg]
        simp only [AeroDict.similar, AeroDict.divRates, AeroDict.reindex, AeroDict.faster, AeroDict.scaleSpeed, AeroDict.scaleDensity, T, idSim_Q, idSim_spd,
          Section.scaleLength, getD_map_div, getD_map_mul]
        ext <;> simp <;> field_simp)
      (by simp [T, AeroDict.similar, AeroDict.divRates, AeroDict.reindex, AeroDict.faster, AeroDict.scaleSpeed, AeroDict.scaleDensity])
      (fun V => by simp [T, AeroDict.similar, AeroDict.divRates, AeroDict.reindex, AeroDict.faster, AeroDict.scaleSpeed, AeroDict.scaleDensity])
      (fun _ => by simp [T, AeroDict.similar, AeroDict.divRates, AeroDict.reindex, AeroDict.faster, AeroDict.scaleSpeed, AeroDict.scaleDensity])
      (by
        simp only [T, AeroDict.similar, AeroDict.divRates, AeroDict.reindex, AeroDict.faster, AeroDict.scaleSpeed, AeroDict.scaleDensity, Option.map_map]
        cases d.localState <;> simp)
  have hctrl : CtrlImage σ (processCtrl G st c).ctrl (processCtrl G' st' c).ctrl := by
    unfold processCtrl
    cases c with
    | none => exact hC
    | some c =>
      simp only
      split
      · constructor <;> intro i <;> simp only [hS] <;> rfl
      · exact hC
  constructor
  · have h := llSolve_image T σ (G := G) (G' := G') (d := d) (d' := d.similar l k m σ) (c := c) (c' := c) (τ := 1) (by simp [T]) (by simp)
      (fun i => by rw [hS]; constructor <;> simp [T, Section.scaleLength])
      (by rw [hcg]; simp [T]) hd hd' harr st st' hctrl
    refine h.mono fun R R' _ _ hi => ⟨?_, hi.sameSections⟩
    have := (hi.loadsScaled (fun a => by simp [T]) (by simp [T])).total
    rw [this, simLoads]
    simp [T]
  · rw [llSolve_ctrl_after _ _ _ _ hd, llSolve_ctrl_after _ _ _ _ hd']
    revert harr
    generalize arrOf G d = A
    generalize arrOf G' _ = A'
    intro harr
    rcases A with e | a <;> rcases A' with e' | a' <;> simp only [Outcome] at harr
    · exact hC
    · exact hctrl

theorem llSolve_similar {ι ι' : Type} [Fintype ι] [DecidableEq ι] [Fintype ι'] [DecidableEq ι'] {G : LLGeom ι} {G' : LLGeom ι'} (σ : ι ≃ ι')
    (hS : ∀ i, G'.S (σ i) = (G.S i).scaleLength l) (hcg : G'.cg = l • G.cg) (d : AeroDict ι) (hd : d.truthy = true) (c : Option CtrlDict)
    {st : LLState ι} {st' : LLState ι'} (hC : CtrlImage σ st.ctrl st'.ctrl) :
    Outcome (fun R R' => R'.total = R.total.sim (simScl l k m hl hk)) (llSolve G st "linear" (some d) c).1
      (llSolve G' st' "linear" (some (d.similar l k m σ)) c).1 ∧
    CtrlImage σ (llSolve G st "linear" (some d) c).2.ctrl (llSolve G' st' "linear" (some (d.similar l k m σ)) c).2.ctrl :=
  have h := llSolve_similar_sections hl hk m σ hS hcg d hd c hC
  ⟨h.1.mono fun _ _ _ _ k => k.1, h.2⟩

theorem inferLat_enlarge {l : ℝ} (hl : 0 < l) (segs : List Seg) : inferLat (segs.map (Seg.enlarge l)) = l * inferLat segs := by
  unfold inferLat
  rw [List.foldl_map]
  have : ∀ (L : List Seg) (x : ℝ), L.foldl (fun (m : ℝ) (s : Seg) => if 2 * (s.enlarge l).span > m then 2 * (s.enlarge l).span else m) (l * x) =
      l * L.foldl (fun (m : ℝ) (s : Seg) => if 2 * s.span > m then 2 * s.span else m) x := by
    intro L
    induction L with
    | nil => intro x; rfl
    | cons a t ih =>
      intro x
      simp only [List.foldl_cons]
      have e : (a.enlarge l).span = l * a.span := rfl
      rw [e]
      by_cases h : 2 * a.span > x
      · rw [if_pos h, if_pos (by nlinarith), ← ih]
        congr 1
        ring
      · rw [if_neg h, if_neg (by push Not at h ⊢; nlinarith), ih]
  simpa using this segs 0

theorem refLengths_enlarge {l : ℝ} (hl : 0 < l) (p : Plane) (Sw : ℝ) : refLengths (p.enlarge l) (l ^ 2 * Sw) = (refLengths p Sw).map fun x => (l * x.1, l * x.2) := by
  have hd : ∀ b : ℝ, safeDiv (l ^ 2 * Sw) (l * b) = (safeDiv Sw b).map (l * ·) := by
    intro b
    unfold safeDiv
    by_cases hb : b = 0
    · simp [hb, Except.map]
    · rw [if_neg (mul_ne_zero hl.ne' hb), if_neg hb]
      have := hl.ne'
      simp only [Except.map, Except.ok.injEq]
      field_simp
  unfold refLengths
  have e1 : (p.enlarge l).latRef = p.latRef.map (l * ·) := rfl
  have e2 : (p.enlarge l).longRef = p.longRef.map (l * ·) := rfl
  rw [e1, e2, enlarge_segments, inferLat_enlarge hl]
  cases p.latRef <;> cases p.longRef <;> simp only [Option.map_some, Option.map_none, hd]
  · cases safeDiv Sw (inferLat p.segments) <;> rfl
  · rename_i x; cases safeDiv Sw x <;> rfl
  · rename_i x; cases safeDiv Sw x <;> rfl
  · rfl

theorem mkWingPart_enlarge {l : ℝ} (hl : 0 < l) (p : Plane) :
    (∃ w, mkWingPart p = .ok w) ↔ ∃ w', mkWingPart (p.enlarge l) = .ok w' := by
  have hm := enlarge_gridMap hl p true
  unfold mkWingPart
  rw [show (p.enlarge l).wings = p.wings from rfl]
  by_cases h0 : p.wings = []
  · rw [if_pos h0, if_pos h0]
  · rw [if_neg h0, if_neg h0]
    cases hg : mkGrid p true with
    | error e =>
      cases hg' : mkGrid (p.enlarge l) true with
      | error e' => simp [bind, Except.bind]
      | ok g' => obtain ⟨g, hg2⟩ := hm.exists_iff.2 ⟨g', hg'⟩; rw [hg] at hg2; cases hg2
    | ok g =>
      obtain ⟨g', hg'⟩ := hm.exists_iff.1 ⟨g, hg⟩
      obtain ⟨-, -, h3⟩ := hm.grids hg hg'
      rw [hg']
      simp only [bind, Except.bind]
      rw [h3, refLengths_enlarge hl]
      cases refLengths p g.refArea <;> simp [Except.map, pure, Except.pure]

/-! ### Propellers -/

/-- the propeller model of the larger aircraft -/
noncomputable def PropM.larger {ι ι' : Type} (l : ℝ) (pts' : Option (ι' → V3)) (M : PropM ι) : PropM ι' :=
  { geom := M.geom.scale l, stn := fun i => (M.stn i).scale l, motor := M.motor, pts := pts', cg := l • M.cg, units := M.units }

theorem mkPropM_pts {ι ι' : Type} (table : String → ℝ → ℝ) (q : PropGeom) (cg : V3) (u : Option String) (pts : Option (ι → V3))
    (pts' : Option (ι' → V3)) : mkPropM table q cg u pts' =
      (mkPropM table q cg u pts).map fun (M : PropM ι) => ⟨M.geom, M.stn, M.motor, pts', M.cg, M.units⟩ := by
  unfold mkPropM
  split
  · rfl
  · split
    · rfl
    · cases bladeAf q with
      | error e => rfl
      | ok af =>
        simp only [bind, Except.bind]
        cases bladePitch table q (zetaAt q 0) (zetaAt q 0 * q.diameter * 0.5) (af 0).aL0 with
        | error e => rfl
        | ok _ =>
          simp only
          cases bladeChord table q (zetaAt q 0) with
          | error e => rfl
          | ok _ =>
            simp only
            cases calcMotor q.motor with
            | error e => rfl
            | ok m =>
              simp only
              split <;> rfl

theorem mkPropM_larger {ι ι' : Type} {l : ℝ} (hl : l ≠ 0) (table : String → ℝ → ℝ) (q : PropGeom) (cg : V3) (u : Option String)
    (pts : Option (ι → V3)) (pts' : Option (ι' → V3)) :
    mkPropM table (q.scale l) (l • cg) u pts' = (mkPropM table q cg u pts).map (PropM.larger l pts') := by
  rw [mkPropM_pts table (q.scale l) (l • cg) u (pts.map fun p i => l • p i) pts', mkPropM_scale hl]
  cases mkPropM table q cg u pts <;> rfl

theorem openProps_larger {ι ι' : Type} (table : String → ℝ → ℝ) (mem : String → ℕ → ℕ → Option ℝ) {l : ℝ} (hl : l ≠ 0) (p : Plane)
    (pts : Option (ι → V3)) (pts' : Option (ι' → V3)) :
    openProps table mem (p.enlarge l) pts' =
      (openProps table mem p pts).map fun s => s.map fun sl =>
        { name := sl.name, model := sl.model.larger l pts', st := sl.st } := by
  have hU : (p.enlarge l).getUnits = p.getUnits := rfl
  have key : ∀ (L : List PropGeom) (d : List (String × PropM ι)),
      (L.map (PropGeom.scale l)).foldlM (fun (d : List (String × PropM ι')) q => do
        let u ← (p.enlarge l).getUnits
        let m ← mkPropM table q (p.enlarge l).cg u pts'
        return dictSet d q.name m) (d.map fun (kv : String × PropM ι) => (kv.1, kv.2.larger l pts')) =
      (L.foldlM (fun (d : List (String × PropM ι)) q => do
        let u ← p.getUnits
        let m ← mkPropM table q p.cg u pts
        return dictSet d q.name m) d).map fun (d : List (String × PropM ι)) => d.map fun (kv : String × PropM ι) => (kv.1, kv.2.larger l pts') := by
    intro L d
    rw [List.foldlM_map]
    refine foldlM_image (fun (d : List (String × PropM ι)) => d.map fun (kv : String × PropM ι) => (kv.1, kv.2.larger l pts')) ?_ L d
    intro d q
    rw [hU, show (p.enlarge l).cg = l • p.cg from rfl]
    cases p.getUnits with
    | error e => rfl
    | ok u =>
      simp only [bind, Except.bind]
      rw [mkPropM_larger hl table q p.cg u pts pts']
      cases mkPropM table q p.cg u pts with
      | error e => rfl
      | ok m =>
        simp only [Except.map, pure, Except.pure]
        exact congrArg Except.ok (dictSet_map (fun _ (a : PropM ι) => a.larger l pts') d q.name m).symm
  have k := key (p.props.map Prod.snd) []
  unfold openProps
  have hp : (p.enlarge l).props.map Prod.snd = (p.props.map Prod.snd).map (PropGeom.scale l) := by
    show (p.props.map fun kv => (kv.1, kv.2.scale l)).map Prod.snd = _
    rw [List.map_map, List.map_map]; rfl
  rw [hp]
  rw [List.map_nil] at k
  rw [k]
  cases ((p.props.map Prod.snd).foldlM (fun d q => do
        let u ← p.getUnits
        let m ← mkPropM table q p.cg u pts
        return dictSet d q.name m) ([] : List (String × PropM ι)) : Except PyErr (List (String × PropM ι))) with
  | error e => rfl
  | ok d =>
    simp only [Except.map, bind, Except.bind, pure, Except.pure, List.map_map]
    rfl

theorem simM_larger {ι ι' : Type} (pts' : Option (ι' → V3)) (M : PropM ι) : SimM (simScl l k m hl hk) M (M.larger l pts') where
  nodes := rfl
  d := rfl
  blades := rfl
  stn := rfl
  motor := rfl
  units := rfl
  pos := by simp [simScl, PropM.larger, PropGeom.scale]
  fwd := rfl
  rot := rfl
  cg := by simp [simScl, PropM.larger]

theorem runsAlike_similar {ι ι' : Type} [Fintype ι] [DecidableEq ι] [Fintype ι'] [DecidableEq ι'] (σ : ι ≃ ι') (simps : List ℝ → List ℝ → ℝ)
    (fuel : ℕ) {d : AeroDict ι} (hd : d.truthy = true) {ps : PropDict} (hp : ps.NoPower) :
    RunsAlike simps fuel (simScl l k m hl hk) SameButRate d (d.similar l k m σ) ps (ps.scaleRates (k / l)) := by
  intro sl sl' h
  unfold slotRun
  rw [h.name, localPS_rates (div_ne_zero hk.ne' hl.ne')]
  cases hL : localPS ps sl.name with
  | error e => exact ⟨rfl, h.st⟩
  | ok pd => exact runProp_sim h.model simps fuel (flowSim_similar hl hk m σ hd) pd (localPS_powerless hp hL) h.st

end

theorem open_larger {table : String → ℝ → ℝ} {mem : String → ℕ → ℕ → Option ℝ} {l : ℝ} (hl : 0 < l) (p : Plane) :
    (∃ o, openMachUp table mem p = .ok o) ↔ ∃ o', openMachUp table mem (p.enlarge l) = .ok o' := by
  unfold openMachUp
  have hp : (p.enlarge l).props = [] ↔ p.props = [] := by
    show p.props.map _ = [] ↔ _
    simp
  have h := mkWingPart_enlarge hl p
  cases hw : mkWingPart p with
  | error e =>
    cases hw' : mkWingPart (p.enlarge l) with
    | error e' => simp [bind, Except.bind]
    | ok w' => rw [hw, hw'] at h; simp at h
  | ok w =>
    obtain ⟨w', hw'⟩ := h.1 ⟨w, hw⟩
    rw [hw']
    simp only [bind, Except.bind, hp]
    by_cases h0 : p.props = []
    · simp [h0, pure, Except.pure]
    · rw [if_neg h0, if_neg h0, openProps_larger table mem hl.ne' p (pointsOf w) (pointsOf w')]
      cases openProps table mem p (pointsOf w) <;> simp [Except.map, pure, Except.pure]

/-- the objects for the two aircraft -/
theorem objSim_enlarge {l k : ℝ} (hl : 0 < l) (hk : 0 < k) (m : ℝ) {table : String → ℝ → ℝ} {mem : String → ℕ → ℕ → Option ℝ} {p : Plane} {o o' : Analyser}
    (ho : openMachUp table mem p = .ok o) (ho' : openMachUp table mem (p.enlarge l) = .ok o') :
    ∃ σ : Fin (sectionsOf o.wing) ≃ Fin (sectionsOf o'.wing), (∀ i, (σ i).val = i.val) ∧
      ObjSim (simScl l k m hl hk) o o' p (p.enlarge l) σ ∧
      List.Forall₂ (SlotSim (simScl l k m hl hk) SameButRate) (o.slots.getD []) (o'.slots.getD []) ∧
      (o.wing.isSome = true → (∀ i, (geomOf (l • p.cg) o'.wing).S (σ i) = ((geomOf p.cg o.wing).S i).scaleLength l) ∧
        (geomOf (l • p.cg) o'.wing).cg = l • (geomOf p.cg o.wing).cg) := by
  obtain ⟨hw, hs⟩ := slots_cases ho
  obtain ⟨hw', hs'⟩ := slots_cases ho'
  have hσ : ∃ σ : Fin (sectionsOf o.wing) ≃ Fin (sectionsOf o'.wing), (∀ i, (σ i).val = i.val) ∧
      o'.wing.isSome = o.wing.isSome ∧
      pointsOf o'.wing = (pointsOf o.wing).map (fun f i' => l • (f (σ.symm i'))) ∧
      (o.wing.isSome = true → (∀ i, (geomOf (l • p.cg) o'.wing).S (σ i) = ((geomOf p.cg o.wing).S i).scaleLength l) ∧
        (geomOf (l • p.cg) o'.wing).cg = l • (geomOf p.cg o.wing).cg) := by
    obtain ⟨w, sl⟩ := o
    obtain ⟨w', sl'⟩ := o'
    simp only at hw hw'
    have hcase := wing_isSome hw
    have hcase' := wing_isSome hw'
    rw [show (p.enlarge l).wings = p.wings from rfl] at hcase'
    rcases w with _ | W
    · rcases w' with _ | W'
      · exact ⟨Equiv.refl (Fin 0), fun i => i.elim0, rfl, rfl, fun h => by simp at h⟩
      · simp at hcase hcase'; exact absurd hcase hcase'
    · rcases w' with _ | W'
      · simp at hcase hcase'; exact absurd hcase' hcase
      · have hg := wing_grid hw
        have hg' := wing_grid hw'
        obtain ⟨h1, -⟩ := (enlarge_gridMap hl p true).grids hg hg'
        have e : W.grid.data.length = W'.grid.data.length := by rw [h1, List.length_map]
        have hsec : ∀ i, W'.grid.data.get (finCongr e i) = (W.grid.data.get i).enlarge l := by
          intro i; simp [h1]
        refine ⟨finCongr e, fun i => rfl, rfl, ?_, fun _ => ⟨fun i => ?_, rfl⟩⟩
        · simp only [pointsOf, Option.map_some, Option.some.injEq]
          funext i'
          have := hsec ((finCongr e).symm i')
          have e2 : (finCongr e) ((finCongr e).symm i') = i' := (finCongr e).apply_symm_apply i'
          exact (congrArg (fun i => (W'.grid.data.get i).rcp) e2).symm.trans (congrArg (fun x : GridSec => x.rcp) this)
        · show (W'.grid.data.get (finCongr e i)).toSection = _
          rw [hsec i]
          rfl
  obtain ⟨σ, g0, g2, g3, g4⟩ := hσ
  have hpe : (p.enlarge l).props = [] ↔ p.props = [] := by
    show p.props.map _ = [] ↔ _
    simp
  have hslots : o'.slots.isSome = o.slots.isSome ∧ List.Forall₂ (SlotSim (simScl l k m hl hk) SameButRate) (o.slots.getD []) (o'.slots.getD []) := by
    rcases hs with ⟨q, q1⟩ | ⟨q, s, q1, q2⟩ <;> rcases hs' with ⟨q', q1'⟩ | ⟨q', s', q1', q2'⟩
    · rw [q1, q1']; exact ⟨rfl, .nil⟩
    · exact absurd (hpe.2 q) q'
    · exact absurd (hpe.1 q') q
    · rw [q1, q1']
      refine ⟨rfl, ?_⟩
      rw [openProps_larger table mem hl.ne' p (pointsOf o.wing) (pointsOf o'.wing), q2] at q2'
      cases q2'
      simp only [Option.getD_some]
      clear q1 q2 q1'
      induction s with
      | nil => exact .nil
      | cons a t ih => exact .cons ⟨rfl, simM_larger hl hk m _ _, rfl⟩ ih
  have hO : ObjSim (simScl l k m hl hk) o o' p (p.enlarge l) σ :=
    { props := by
        show (p.props.map _).isEmpty = _
        simp
      wings := rfl
      cg := by simp [simScl, Plane.enlarge]
      wing := g2
      slots := hslots.1
      points := by simpa [simScl] using g3 }
  exact ⟨σ, g0, hO, hslots.2, g4⟩

/-- one `solve` on the two aircraft -/
theorem muSolve_larger {l k : ℝ} (hl : 0 < l) (hk : 0 < k) (m : ℝ) {p : Plane} {o o' : Analyser} {σ : Fin (sectionsOf o.wing) ≃ Fin (sectionsOf o'.wing)}
    (hO : ObjSim (simScl l k m hl hk) o o' p (p.enlarge l) σ)
    (g4 : o.wing.isSome = true → (∀ i, (geomOf (l • p.cg) o'.wing).S (σ i) = ((geomOf p.cg o.wing).S i).scaleLength l) ∧
        (geomOf (l • p.cg) o'.wing).cg = l • (geomOf p.cg o.wing).cg)
    {simps : List ℝ → List ℝ → ℝ} {fuel : ℕ} {bad : _} {bad' : _} (w : World (o.backend p simps fuel bad))
    (w' : World (o'.backend (p.enlarge l) simps fuel bad')) {d : AeroDict (Fin (sectionsOf o.wing))} (ht : d.truthy = true)
    (hd : w.aero = some d) (hd' : w'.aero = some (d.similar l k m σ)) (hc : w'.ctrl = w.ctrl)
    (ps : Option PropDict) (hn : ∀ x, ps = some x → x.NoPower)
    (hst : StSim (simScl l k m hl hk) SameButRate σ w.st w'.st) :
    Outcome (fun T T' => T' = T.scale (m * k ^ 2 * l ^ 2) (m * k ^ 2 * l ^ 3)) (muSolve ps w).1
      (muSolve (ps.map (PropDict.scaleRates (k / l))) w').1 ∧
    StSim (simScl l k m hl hk) SameButRate σ (muSolve ps w).2.st (muSolve (ps.map (PropDict.scaleRates (k / l))) w').2.st := by
  have hps : (ps.map (PropDict.scaleRates (k / l))).getD [] = (ps.getD []).scaleRates (k / l) := by
    cases ps <;> rfl
  have hnp : (ps.getD []).NoPower := by
    cases hc : ps with
    | none => intro kv h; cases h
    | some x => exact hn x hc
  have := hO.muSolve (P := SameButRate) (w := w) (w' := w')
    (d := d) (d' := d.similar l k m σ) (c := w.ctrl) (flowSim_similar hl hk m σ ht) hd rfl hd' hc ps
    (ps.map (PropDict.scaleRates (k / l))) (by rw [hps]; exact runsAlike_similar hl hk m σ simps fuel ht hnp) hst
    (by
      rintro f f' st st' hff hC hi
      have hf : ({ d.similar l k m σ with localState := f' } : AeroDict (Fin (sectionsOf o'.wing))) =
          ({ d with localState := f } : AeroDict (Fin (sectionsOf o.wing))).similar l k m σ ∧
          ({ d with localState := f } : AeroDict (Fin (sectionsOf o.wing))).truthy = true := by
        rcases hff with ⟨rfl, rfl⟩ | ⟨g, rfl, rfl⟩
        · exact ⟨rfl, ht⟩
        · exact ⟨rfl, by simp [AeroDict.truthy]⟩
      rw [hf.1]
      exact llSolve_similar hl hk m σ (g4 hi).1 (g4 hi).2 _ hf.2 w.ctrl hC)
  refine ⟨this.1.mono ?_, this.2⟩
  rintro T T' - - rfl
  exact simLoads hl hk m T

/-- **C122.** Build an aircraft twice, the second time with all lengths in all calls multiplied by `l`.  A `MachUp` object can be
constructed for the second one iff it can for the first one.  Make a sequence of `solve` calls on both, on the second one `k` times as
fast in air `m` times as dense, with the rotation rates of the aircraft and of the propellers multiplied by `k/l` (advance ratios are left
alone).  Each call on the second one fails with the same exception as the one on the first one, or gives `m k² l²` times its forces and
`m k² l³` times its moments. -/
theorem C122_similar (table : String → ℝ → ℝ) (mem : String → ℕ → ℕ → Option ℝ) (simps : List ℝ → List ℝ → ℝ) (fuel : ℕ)
    (nm : String) (pos : Option V3) (ops : List PlaneOp) (units : Option (Option String)) {l k : ℝ} (hl : 0 < l) (hk : 0 < k) (m : ℝ)
    (p p' : Plane) (hp : p = { built nm pos ops with units })
    (hp' : p' = { built nm (pos.map (l • ·)) (ops.map (PlaneOp.enlarge l)) with units }) :
    ((∃ o, openMachUp table mem p = .ok o) ↔ ∃ o', openMachUp table mem p' = .ok o') ∧
    ∀ o o' : Analyser, openMachUp table mem p = .ok o → openMachUp table mem p' = .ok o' →
      ∃ σ : Fin (sectionsOf o.wing) ≃ Fin (sectionsOf o'.wing), (∀ i, (σ i).val = i.val) ∧
        ∀ (bad : _) (bad' : _) (calls : List (AeroDict (Fin (sectionsOf o.wing)) × Option CtrlDict × Option PropDict)),
          (∀ c ∈ calls, c.1.truthy = true ∧ ∀ ps, c.2.2 = some ps → ps.NoPower) →
          List.Forall₂ (Outcome fun T T' => T' = T.scale (m * k ^ 2 * l ^ 2) (m * k ^ 2 * l ^ 3))
            (solveSeq (o.fresh p simps fuel bad none none) (calls.map fun c => ⟨some c.1, c.2.1, c.2.2⟩))
            (solveSeq (o'.fresh p' simps fuel bad' none none)
              (calls.map fun c => ⟨some (((c.1.faster k m).divRates l).reindex σ), c.2.1, c.2.2.map (PropDict.scaleRates (k / l))⟩)) := by
  have hpe : p' = p.enlarge l := by
    rw [hp, hp', built_enlarge hl.ne']; rfl
  clear hp hp'
  subst hpe
  refine ⟨open_larger hl p, fun o o' ho ho' => ?_⟩
  obtain ⟨σ, g0, hO, hslots, g4⟩ := objSim_enlarge hl hk m ho ho'
  refine ⟨σ, g0, fun bad bad' calls hd => ?_⟩
  have key : ∀ (calls : List (AeroDict (Fin (sectionsOf o.wing)) × Option CtrlDict × Option PropDict)) (w : World (o.backend p simps fuel bad))
      (w' : World (o'.backend (p.enlarge l) simps fuel bad')),
      (∀ c ∈ calls, c.1.truthy = true ∧ ∀ ps, c.2.2 = some ps → ps.NoPower) → StSim (simScl l k m hl hk) SameButRate σ w.st w'.st →
      List.Forall₂ (Outcome fun T T' => T' = T.scale (m * k ^ 2 * l ^ 2) (m * k ^ 2 * l ^ 3))
        (solveSeq w (calls.map fun c => ⟨some c.1, c.2.1, c.2.2⟩))
        (solveSeq w' (calls.map fun c => ⟨some (((c.1.faster k m).divRates l).reindex σ), c.2.1, c.2.2.map (PropDict.scaleRates (k / l))⟩)) := by
    intro calls
    induction calls with
    | nil => intro w w' _ _; exact .nil
    | cons c t ih =>
      intro w w' hd hst
      obtain ⟨ht, hn⟩ := hd c (by simp)
      have := muSolve_larger hl hk m hO g4 { w with aero := some c.1, ctrl := c.2.1 }
        { w' with aero := some (c.1.similar l k m σ), ctrl := c.2.1 } ht rfl rfl rfl c.2.2 hn hst
      exact .cons this.1 (ih _ _ (fun c hc => hd c (by simp [hc])) this.2)
  exact key calls _ _ hd ⟨⟨fun _ => rfl, fun _ => rfl⟩, hslots⟩

/-- C122: a wingless aircraft with one propeller and the same aircraft three times as large, twice as fast: both solves succeed -/
example : ∃ (mem : String → ℕ → ℕ → Option ℝ) (o o' : Analyser), openMachUp (fun _ _ => 0) mem rotor = .ok o ∧
    openMachUp (fun _ _ => 0) mem { built "rotor" none (rotorOps.map (PlaneOp.enlarge 3)) with units := some none } = .ok o' ∧
    ∃ σ : Fin (sectionsOf o.wing) ≃ Fin (sectionsOf o'.wing), ∀ bad bad', ∃ T T',
      (muSolve (some [("J", .num 0.5)]) (o.fresh rotor (fun _ _ => 1) 1 bad (some { Vmag := some 10, rho := some 1 }) none)).1 = .ok T ∧
      (muSolve (some [("J", .num 0.5)]) (o'.fresh { built "rotor" none (rotorOps.map (PlaneOp.enlarge 3)) with units := some none } (fun _ _ => 1) 1
        bad' (some ((((({ Vmag := some 10, rho := some 1 } : AeroDict _)).faster 2 1).divRates 3).reindex σ)) none)).1 = .ok T' ∧
      T.MX ≠ 0 ∧ T'.MX = 108 * T.MX := by
  obtain ⟨mem, o, ho, h⟩ := rotor_solve
  have hC := C122_similar (fun _ _ => 0) mem (fun _ _ => 1) 1 "rotor" none rotorOps (some none) (l := 3) (k := 2) (by norm_num) (by norm_num) 1 rotor _ rfl rfl
  obtain ⟨o', ho'⟩ := hC.1.1 ⟨o, ho⟩
  obtain ⟨σ, -, hk⟩ := hC.2 o o' ho ho'
  refine ⟨mem, o, o', ho, ho', σ, fun bad bad' => ?_⟩
  obtain ⟨T, w', hT, hx⟩ := h bad
  have h2 := (List.forall₂_cons.1 (hk bad bad' [({ Vmag := some 10, rho := some 1 }, none, some [("J", .num 0.5)])] (by
    simp [AeroDict.truthy, PropDict.NoPower]))).1
  have hps : PropDict.scaleRates (2 / 3) [("J", .num 0.5)] = [("J", .num 0.5)] := by
    simp [PropDict.scaleRates, PSVal.scaleRate]
  have h3 : Outcome (fun T T' : Loads => T' = T.scale (1 * 2 ^ 2 * 3 ^ 2) (1 * 2 ^ 2 * 3 ^ 3))
    (muSolve (some [("J", .num 0.5)]) (o.fresh rotor (fun _ _ => 1) 1 bad (some { Vmag := some 10, rho := some 1 }) none)).1
    (muSolve (some (PropDict.scaleRates (2 / 3) [("J", .num 0.5)])) (o'.fresh { built "rotor" none (rotorOps.map (PlaneOp.enlarge 3)) with units := some none } (fun _ _ => 1) 1
        bad' (some ((((({ Vmag := some 10, rho := some 1 } : AeroDict _)).faster 2 1).divRates 3).reindex σ)) none)).1 := h2
  rw [hps, hT] at h3
  rw [hT]
  revert h3
  generalize (muSolve (some [("J", .num 0.5)]) (o'.fresh _ _ 1 bad' _ none)).1 = y
  intro h3
  cases y with
  | error e => exact absurd h3 (by simp [Outcome])
  | ok T' =>
    refine ⟨T, T', rfl, rfl, hx, ?_⟩
    have : T' = T.scale (1 * 2 ^ 2 * 3 ^ 2) (1 * 2 ^ 2 * 3 ^ 3) := h3
    rw [this]
    show (1 * 2 ^ 2 * 3 ^ 3) * T.MX = _
    norm_num

end Verif
