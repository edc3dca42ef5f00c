import Verif.Thm.CraftMove

/-! Helper lemmas: two planes whose grids differ only in the names of the sections give the same results. -/

namespace Verif
open V3 Act

/-- the same section under another name -/
def SameGS (g g' : GridSec) : Prop := g' = { g with name := g'.name }

/-- the two segments give the same data, up to the name -/
structure SegAlike (p p' : Plane) (c : Bool) (s s' : Seg) : Prop where
  isMain : s'.isMain = s.isMain
  n : s'.n = s.n
  span : s'.span = s.span
  data : segData p' c s' = (segData p c s).map (·.map fun g => { g with name := s'.name })

theorem sameGS_map (v : List GridSec) (nm : String) : List.Forall₂ SameGS v (v.map fun g => { g with name := nm }) := by
  induction v with
  | nil => exact .nil
  | cons g t ih => exact .cons rfl ih

theorem alike_exists {p p' : Plane} {c : Bool} (h : List.Forall₂ (SegAlike p p' c) p.segments p'.segments) :
    (∃ g, mkGrid p c = .ok g) ↔ ∃ g', mkGrid p' c = .ok g' := by
  have ex : ∀ {q : Plane} {g : Grid}, mkGrid q c = .ok g → ∀ s ∈ q.segments, ∃ v, segData q c s = .ok v := by
    intro q g hg
    obtain ⟨vs, hvs, hrest⟩ := mkGrid_ok hg
    clear hrest
    intro s hs
    generalize q.segments = segs at hvs hs
    induction hvs with
    | nil => cases hs
    | cons hv _ ih =>
      rcases List.mem_cons.1 hs with rfl | hs
      · exact ⟨_, hv⟩
      · exact ih hs
  have key : (∀ s ∈ p.segments, ∃ v, segData p c s = .ok v) ↔ ∀ s' ∈ p'.segments, ∃ v, segData p' c s' = .ok v := by
    generalize p.segments = a at h ⊢
    generalize p'.segments = b at h ⊢
    induction h with
    | nil => simp
    | cons h1 _ ih =>
      simp only [List.forall_mem_cons, ih]
      refine and_congr_left fun _ => ?_
      rw [h1.data]
      cases segData p c _ <;> simp [Except.map]
  exact ⟨fun ⟨g, hg⟩ => mkGrid_of (key.1 (ex hg)), fun ⟨g, hg⟩ => mkGrid_of (key.2 (ex hg))⟩

theorem alike_grids {p p' : Plane} {c : Bool} (h : List.Forall₂ (SegAlike p p' c) p.segments p'.segments) {g g' : Grid}
    (hg : mkGrid p c = .ok g) (hg' : mkGrid p' c = .ok g') :
    List.Forall₂ SameGS g.data g'.data ∧ g'.slices = g.slices ∧ g'.refArea = g.refArea := by
  obtain ⟨vs, hvs, d1, d2, d3⟩ := mkGrid_ok hg
  obtain ⟨vs', hvs', d1', d2', d3'⟩ := mkGrid_ok hg'
  rw [d1, d1', d2, d2', d3, d3']
  clear d1 d1' d2 d2' d3 d3' hg hg'
  have hlist : ∀ {a b : List Seg} {vs vs' : List (List GridSec)}, List.Forall₂ (SegAlike p p' c) a b →
      List.Forall₂ (fun s v => segData p c s = .ok v) a vs → List.Forall₂ (fun s v => segData p' c s = .ok v) b vs' →
      List.Forall₂ SameGS vs.flatten vs'.flatten ∧ (∀ i, slicesFrom i b = slicesFrom i a) ∧ refOf b vs' = refOf a vs := by
    intro a b vs vs' hab
    induction hab generalizing vs vs' with
    | nil =>
      intro h1 h2
      cases h1; cases h2
      exact ⟨.nil, fun _ => rfl, rfl⟩
    | @cons s s' a b hs _ ih =>
      intro h1 h2
      cases h1 with
      | cons hv h1 =>
        cases h2 with
        | cons hv' h2 =>
          obtain ⟨e1, e2, e3⟩ := ih h1 h2
          rw [hs.data, hv] at hv'
          simp only [Except.map, Except.ok.injEq] at hv'
          subst hv'
          refine ⟨?_, fun i => by simp [slicesFrom, hs.n, e2], ?_⟩
          · rw [List.flatten_cons, List.flatten_cons]
            exact List.rel_append (sameGS_map _ _) e1
          · simp only [refOf, e3, hs.isMain, List.map_map]
            rfl
  obtain ⟨e1, e2, e3⟩ := hlist h hvs hvs'
  refine ⟨?_, e2 _, e3⟩
  generalize vs.flatten = x at e1
  generalize vs'.flatten = y at e1
  induction e1 with
  | nil => exact .nil
  | cons h1 _ ih =>
    refine .cons ?_ ih
    unfold SameGS at h1 ⊢
    rw [h1]; rfl

/-- two planes that differ, as far as analyses are concerned, only in the names of the sections -/
structure Relabels (p p' : Plane) : Prop where
  segs : List.Forall₂ (SegAlike p p' true) p.segments p'.segments
  wings : p'.wings = [] ↔ p.wings = []
  props : p'.props = p.props
  cg : p'.cg = p.cg
  units : p'.units = p.units
  latRef : p'.latRef = p.latRef
  longRef : p'.longRef = p.longRef

theorem Relabels.refs {p p' : Plane} (h : Relabels p p') (Sw : ℝ) : refLengths p' Sw = refLengths p Sw := by
  have hl : inferLat p'.segments = inferLat p.segments := by
    have hs := h.segs
    unfold inferLat
    generalize (0 : ℝ) = m
    generalize p.segments = a at hs ⊢
    generalize p'.segments = b at hs ⊢
    induction hs generalizing m with
    | nil => rfl
    | cons h1 _ ih =>
      simp only [List.foldl_cons, h1.span]
      exact ih _
  unfold refLengths
  rw [h.latRef, h.longRef, hl]

theorem mkWingPart_relabel {p p' : Plane} (h : Relabels p p') :
    (∃ w, mkWingPart p = .ok w) ↔ ∃ w', mkWingPart p' = .ok w' := by
  unfold mkWingPart
  by_cases h0 : p.wings = []
  · rw [if_pos h0, if_pos (h.wings.2 h0)]
  · rw [if_neg h0, if_neg (fun e => h0 (h.wings.1 e))]
    cases hg : mkGrid p true with
    | error e =>
      cases hg' : mkGrid p' true with
      | error e' => simp [bind, Except.bind]
      | ok g' => obtain ⟨g, hg2⟩ := (alike_exists h.segs).2 ⟨g', hg'⟩; rw [hg] at hg2; cases hg2
    | ok g =>
      obtain ⟨g', hg'⟩ := (alike_exists h.segs).1 ⟨g, hg⟩
      obtain ⟨-, -, h3⟩ := alike_grids h.segs hg hg'
      rw [hg']
      simp only [bind, Except.bind]
      rw [h3, h.refs]
      cases refLengths p g.refArea <;> simp [pure, Except.pure]

theorem openProps_relabel {ι ι' : Type} (table : String → ℝ → ℝ) (mem : String → ℕ → ℕ → Option ℝ) {p p' : Plane} (h : Relabels p p') (pts : Option (ι → V3)) (pts' : Option (ι' → V3)) :
    openProps table mem p' pts' =
      (openProps table mem p pts).map fun s => s.map fun sl =>
        { name := sl.name, model := sl.model.carried 0 pts', st := sl.st } := by
  rw [← openProps_carried]
  have e1 : (p.carried 0).props = p.props := by
    show p.props.map _ = _
    conv_rhs => rw [← List.map_id p.props]
    apply List.map_congr_left
    rintro ⟨k, q⟩ _
    simp [PropGeom.moved]
  have e2 : (p.carried 0).cg = p.cg := add_zero _
  have e3 : (p.carried 0).getUnits = p'.getUnits := by
    show p.getUnits = p'.getUnits
    simp only [Plane.getUnits, h.units]
  unfold openProps
  rw [e1, e2, e3, h.props, h.cg]

theorem open_relabel {table : String → ℝ → ℝ} {mem : String → ℕ → ℕ → Option ℝ} {p p' : Plane}
    (h : Relabels p p') : (∃ o, openMachUp table mem p = .ok o) ↔ ∃ o', openMachUp table mem p' = .ok o' := by
  unfold openMachUp
  have hk := mkWingPart_relabel h
  cases hw : mkWingPart p with
  | error e =>
    cases hw' : mkWingPart p' with
    | error e' => simp [bind, Except.bind]
    | ok w' => rw [hw, hw'] at hk; simp at hk
  | ok w =>
    obtain ⟨w', hw'⟩ := hk.1 ⟨w, hw⟩
    rw [hw']
    simp only [bind, Except.bind, h.props]
    by_cases h0 : p.props = []
    · simp [h0, pure, Except.pure]
    · rw [if_neg h0, if_neg h0, openProps_relabel table mem h (pointsOf w) (pointsOf w')]
      cases openProps table mem p (pointsOf w) <;> simp [Except.map, pure, Except.pure]

/-- everything about the sections but the name -/
def SameSec (S S' : Section) : Prop := S' = { S with name := S'.name }

theorem llSolve_relabel_sections {ι ι' : Type} [Fintype ι] [DecidableEq ι] [Fintype ι'] [DecidableEq ι'] {G : LLGeom ι} {G' : LLGeom ι'} (σ : ι ≃ ι')
    (hS : ∀ i, SameSec (G.S i) (G'.S (σ i))) (hcg : G'.cg = G.cg) (d : AeroDict ι) (hd : d.truthy = true) (c : Option CtrlDict)
    {st : LLState ι} {st' : LLState ι'} (hC : CtrlImage σ st.ctrl st'.ctrl) :
    Outcome (fun R R' => R'.total = R.total.sim (moveScl 0) ∧ SameSections σ R R') (llSolve G st "linear" (some d) c).1
      (llSolve G' st' "linear" (some (d.reindex σ)) c).1 ∧
    CtrlImage σ (llSolve G st "linear" (some d) c).2.ctrl (llSolve G' st' "linear" (some (d.reindex σ)) c).2.ctrl := by
  let T := idSim 1 one_pos 0 1 one_pos 1
  have hd' : (d.reindex σ).truthy = true := by rw [truthy_reindex, hd]
  have harr : Outcome (ArrImage T σ) (arrOf G d) (arrOf G' (d.reindex σ)) :=
    arrOf_image T σ (by simp [AeroDict.hasRates, AeroDict.reindex])
      (fun i => by
        rw [hS, hcg]
        simp [AeroDict.reindex, T])
      (by simp [T, AeroDict.reindex]) (fun V => by simp [T, AeroDict.reindex])
      (fun _ => by simp [T, AeroDict.reindex]) (by simp [T, AeroDict.reindex])
  have hctrl : CtrlImage σ (processCtrl G st c).ctrl (processCtrl G' st' c).ctrl := by
    unfold processCtrl
    cases c with
    | none => exact hC
    | some c =>
      simp only
      split
      · constructor <;> intro i <;> simp only [congrArg Section.mixA (hS i), congrArg Section.mixE (hS i), congrArg Section.mixR (hS i),
          congrArg Section.mixF (hS i)]
      · exact hC
  constructor
  · have h := llSolve_image T σ (G := G) (G' := G') (d := d) (d' := d.reindex σ) (c := c) (c' := c) (τ := 1) (by simp [T]) (by simp)
      (fun i => by rw [hS i]; constructor <;> simp [T])
      (by rw [hcg]; simp [T]) hd hd' harr st st' hctrl
    refine h.mono fun R R' _ _ hi => ⟨?_, hi.sameSections⟩
    have := (hi.loadsScaled (fun a => by simp [T]) (by simp [T])).total
    rw [this, moveLoads]
    ext <;> simp [T, Loads.scale]
  · rw [llSolve_ctrl_after _ _ _ _ hd, llSolve_ctrl_after _ _ _ _ hd']
    revert harr
    generalize arrOf G d = A
    generalize arrOf G' _ = A'
    intro harr
    rcases A with e | a <;> rcases A' with e' | a' <;> simp only [Outcome] at harr
    · exact hC
    · exact hctrl

theorem llSolve_relabel {ι ι' : Type} [Fintype ι] [DecidableEq ι] [Fintype ι'] [DecidableEq ι'] {G : LLGeom ι} {G' : LLGeom ι'} (σ : ι ≃ ι')
    (hS : ∀ i, SameSec (G.S i) (G'.S (σ i))) (hcg : G'.cg = G.cg) (d : AeroDict ι) (hd : d.truthy = true) (c : Option CtrlDict)
    {st : LLState ι} {st' : LLState ι'} (hC : CtrlImage σ st.ctrl st'.ctrl) :
    Outcome (fun R R' => R'.total = R.total.sim (moveScl 0)) (llSolve G st "linear" (some d) c).1
      (llSolve G' st' "linear" (some (d.reindex σ)) c).1 ∧
    CtrlImage σ (llSolve G st "linear" (some d) c).2.ctrl (llSolve G' st' "linear" (some (d.reindex σ)) c).2.ctrl :=
  have h := llSolve_relabel_sections σ hS hcg d hd c hC
  ⟨h.1.mono fun _ _ _ _ k => k.1, h.2⟩

theorem objSim_relabel {table : String → ℝ → ℝ} {mem : String → ℕ → ℕ → Option ℝ} {p p' : Plane}
    (h : Relabels p p') {o o' : Analyser}
    (ho : openMachUp table mem p = .ok o) (ho' : openMachUp table mem p' = .ok o') :
    ∃ σ : Fin (sectionsOf o.wing) ≃ Fin (sectionsOf o'.wing), (∀ i, (σ i).val = i.val) ∧
      ObjSim (moveScl 0) o o' p p' σ ∧
      List.Forall₂ (SlotSim (moveScl 0) fun st st' => st' = st) (o.slots.getD []) (o'.slots.getD []) ∧
      (o.wing.isSome = true → (∀ i, SameSec ((geomOf p.cg o.wing).S i) ((geomOf p'.cg o'.wing).S (σ i))) ∧
        (geomOf p'.cg o'.wing).cg = (geomOf p.cg o.wing).cg) := by
  obtain ⟨hw, hs⟩ := slots_cases ho
  obtain ⟨hw', hs'⟩ := slots_cases ho'
  have hσ : ∃ σ : Fin (sectionsOf o.wing) ≃ Fin (sectionsOf o'.wing), (∀ i, (σ i).val = i.val) ∧
      o'.wing.isSome = o.wing.isSome ∧
      pointsOf o'.wing = (pointsOf o.wing).map (fun f i' => f (σ.symm i')) ∧
      (o.wing.isSome = true → (∀ i, SameSec ((geomOf p.cg o.wing).S i) ((geomOf p'.cg o'.wing).S (σ i))) ∧
        (geomOf p'.cg o'.wing).cg = (geomOf p.cg o.wing).cg) := by
    obtain ⟨w, sl⟩ := o
    obtain ⟨w', sl'⟩ := o'
    simp only at hw hw'
    have hcase := wing_isSome hw
    have hcase' := wing_isSome hw'
    have hcw := h.wings
    rcases w with _ | W
    · rcases w' with _ | W'
      · exact ⟨Equiv.refl (Fin 0), fun i => i.elim0, rfl, rfl, fun h => by simp at h⟩
      · simp at hcase hcase'; exact absurd (hcw.2 hcase) hcase'
    · rcases w' with _ | W'
      · simp at hcase hcase'; exact absurd (hcw.1 hcase') hcase
      · have hg := wing_grid hw
        have hg' := wing_grid hw'
        obtain ⟨h1, -⟩ := alike_grids h.segs hg hg'
        have e : W.grid.data.length = W'.grid.data.length := by exact h1.length_eq
        have hsec : ∀ i, SameGS (W.grid.data.get i) (W'.grid.data.get (finCongr e i)) := by
          intro i; exact h1.get i.2 (e ▸ i.2)
        refine ⟨finCongr e, fun i => rfl, rfl, ?_, fun _ => ⟨fun i => ?_, h.cg⟩⟩
        · simp only [pointsOf, Option.map_some, Option.some.injEq]
          funext i'
          have := hsec ((finCongr e).symm i')
          have e2 : (finCongr e) ((finCongr e).symm i') = i' := (finCongr e).apply_symm_apply i'
          exact (congrArg (fun i => (W'.grid.data.get i).rcp) e2).symm.trans ((congrArg (fun x : GridSec => x.rcp) this).trans rfl)
        · show SameSec (W.grid.data.get i).toSection (W'.grid.data.get (finCongr e i)).toSection
          rw [hsec i]
          rfl
  obtain ⟨σ, g0, g2, g3, g4⟩ := hσ
  have hslots : o'.slots.isSome = o.slots.isSome ∧
      List.Forall₂ (SlotSim (moveScl 0) fun st st' => st' = st) (o.slots.getD []) (o'.slots.getD []) := by
    rcases hs with ⟨q, q1⟩ | ⟨q, s, q1, q2⟩ <;> rcases hs' with ⟨q', q1'⟩ | ⟨q', s', q1', q2'⟩
    · rw [q1, q1']; exact ⟨rfl, .nil⟩
    · rw [h.props] at q'; exact absurd q q'
    · rw [h.props] at q'; exact absurd q' q
    · rw [q1, q1']
      refine ⟨rfl, ?_⟩
      rw [openProps_relabel table mem h (pointsOf o.wing) (pointsOf o'.wing), q2] at q2'
      cases q2'
      simp only [Option.getD_some]
      clear q1 q2 q1'
      induction s with
      | nil => exact .nil
      | cons a t ih => exact .cons ⟨rfl, simM_carried 0 _ _, rfl⟩ ih
  have hO : ObjSim (moveScl 0) o o' p p' σ :=
    { props := by rw [h.props]
      wings := by
        have := h.wings
        revert this
        generalize p.wings = a
        generalize p'.wings = b
        intro this
        rcases a with _ | _ <;> rcases b with _ | _ <;> simp_all
      cg := by simp [moveScl, h.cg]
      wing := g2
      slots := hslots.1
      points := by simpa [moveScl] using g3 }
  exact ⟨σ, g0, hO, hslots.2, g4⟩

/-- one `solve` on the two aircraft -/
theorem muSolve_relabel {p p' : Plane} {o o' : Analyser} {σ : Fin (sectionsOf o.wing) ≃ Fin (sectionsOf o'.wing)}
    (hO : ObjSim (moveScl 0) o o' p p' σ)
    (g4 : o.wing.isSome = true → (∀ i, SameSec ((geomOf p.cg o.wing).S i) ((geomOf p'.cg o'.wing).S (σ i))) ∧
        (geomOf p'.cg o'.wing).cg = (geomOf p.cg o.wing).cg)
    {simps : List ℝ → List ℝ → ℝ} {fuel : ℕ} {bad : _} {bad' : _} (w : World (o.backend p simps fuel bad))
    (w' : World (o'.backend p' simps fuel bad')) {d : AeroDict (Fin (sectionsOf o.wing))} (ht : d.truthy = true)
    (hd : w.aero = some d) (hd' : w'.aero = some (d.reindex σ)) (hc : w'.ctrl = w.ctrl) (ps : Option PropDict)
    (hst : StSim (moveScl 0) (fun st st' => st' = st) σ w.st w'.st) :
    Outcome (fun T T' => T' = T) (muSolve ps w).1 (muSolve ps w').1 ∧
    StSim (moveScl 0) (fun st st' => st' = st) σ (muSolve ps w).2.st (muSolve ps w').2.st := by
  have := hO.muSolve (P := fun st st' => st' = st) (w := w) (w' := w')
    (d := d) (d' := d.reindex σ) (c := w.ctrl) (flowSim_move 0 σ ht) hd rfl hd' hc ps
    ps (runsAlike_move σ simps fuel 0 ht _) hst
    (by
      rintro f f' st st' hff hC hi
      have hf : ({ d.reindex σ with localState := f' } : AeroDict (Fin (sectionsOf o'.wing))) =
          ({ d with localState := f } : AeroDict (Fin (sectionsOf o.wing))).reindex σ ∧
          ({ d with localState := f } : AeroDict (Fin (sectionsOf o.wing))).truthy = true := by
        rcases hff with ⟨rfl, rfl⟩ | ⟨g, rfl, rfl⟩
        · exact ⟨rfl, ht⟩
        · refine ⟨?_, by simp [AeroDict.truthy]⟩
          rw [fieldSim_move]
          rfl
      rw [hf.1]
      exact llSolve_relabel σ (g4 hi).1 (g4 hi).2 _ hf.2 w.ctrl hC)
  refine ⟨this.1.mono ?_, this.2⟩
  rintro T T' - - rfl
  exact moveLoads 0 T

theorem refs_relabel {p p' : Plane} (h : Relabels p p') {w w' : Option WingPart}
    (hw : mkWingPart p = .ok w) (hw' : mkWingPart p' = .ok w') :
    (w'.map (·.Sw)).getD 0 = (w.map (·.Sw)).getD 0 ∧ (w'.map (·.lat)).getD 0 = (w.map (·.lat)).getD 0 ∧
    (w'.map (·.long)).getD 0 = (w.map (·.long)).getD 0 := by
  unfold mkWingPart at hw hw'
  by_cases h0 : p.wings = []
  · rw [if_pos h0] at hw
    rw [if_pos (h.wings.2 h0)] at hw'
    cases hw; cases hw'
    simp
  · rw [if_neg h0] at hw
    rw [if_neg (fun e => h0 (h.wings.1 e))] at hw'
    cases hg : mkGrid p true with
    | error e => rw [hg] at hw; cases hw
    | ok g =>
      cases hg' : mkGrid p' true with
      | error e => rw [hg'] at hw'; cases hw'
      | ok g' =>
        obtain ⟨-, -, h3⟩ := alike_grids h.segs hg hg'
        rw [hg] at hw
        rw [hg'] at hw'
        simp only [bind, Except.bind] at hw hw'
        rw [h3, h.refs] at hw'
        cases hr : refLengths p g.refArea with
        | error e => rw [hr] at hw; cases hw
        | ok x =>
          rw [hr] at hw hw'
          cases hw
          cases hw'
          refine ⟨?_, rfl, rfl⟩
          exact h3

/-- `solve` on the two aircraft, in lockstep -/
theorem like_muSolve_relabel {p p' : Plane} {o o' : Analyser} {σ : Fin (sectionsOf o.wing) ≃ Fin (sectionsOf o'.wing)}
    (hO : ObjSim (moveScl 0) o o' p p' σ)
    (g4 : o.wing.isSome = true → (∀ i, SameSec ((geomOf p.cg o.wing).S i) ((geomOf p'.cg o'.wing).S (σ i))) ∧
        (geomOf p'.cg o'.wing).cg = (geomOf p.cg o.wing).cg)
    {simps : List ℝ → List ℝ → ℝ} {fuel : ℕ} {bad : _} {bad' : _} (ps : Option PropDict) :
    Lock (LikeWorld (B := o.backend p simps fuel bad) (B' := o'.backend p' simps fuel bad') 1 1 1 σ
        (StSim (moveScl 0) (fun st st' => st' = st) σ)) (SimLoad 1 1 1) (muSolve ps) (muSolve ps) := by
  intro w w' h
  obtain ⟨d, V, r, hd, hV, hr, hd'⟩ := h.aero
  have ht : d.truthy = true := by simp [AeroDict.truthy, hV]
  obtain ⟨g, g', -⟩ := h.given
  rw [similar_one] at hd'
  obtain ⟨h1, h2⟩ := muSolve_relabel hO g4 w w' ht hd hd' h.ctrl ps h.held
  have hp := hO.propSolve (P := fun st st' => st' = st) (bad := bad) (bad' := bad') (flowSim_move 0 σ ht) ps ps
    (runsAlike_move σ simps fuel 0 ht _) h.held
  obtain ⟨k1, k2, f, f', hff, k3, k4⟩ := solveParts_keeps (s := moveScl 0) (B := o.backend p simps fuel bad)
    (B' := o'.backend p' simps fuel bad') σ (by show (!p'.props.isEmpty) = !p.props.isEmpty; rw [hO.props]) hd hd' hp
  have e1 := muSolve_post (B := o.backend p simps fuel bad) ps g
  have e2 := muSolve_post (B := o'.backend p' simps fuel bad') ps g'
  refine ⟨h1.mono ?_, ?_, ?_, h2⟩
  · rintro T T' - - rfl
    simp [SimLoad, Loads.scale]
  · refine ⟨{ d with localState := f }, V, r, (congrArg World.aero e1).trans k3, hV, hr, (congrArg World.aero e2).trans (k4.trans ?_)⟩
    rw [similar_one]
    rcases hff with ⟨rfl, rfl⟩ | ⟨g, rfl, rfl⟩
    · rfl
    · rw [fieldSim_move]; rfl
  · exact (congrArg World.ctrl e2).trans (k2.trans (h.ctrl.trans (k1.symm.trans (congrArg World.ctrl e1).symm)))

/-- solves on the two aircraft -/
theorem solves_relabel {table : String → ℝ → ℝ} {mem : String → ℕ → ℕ → Option ℝ} (simps : List ℝ → List ℝ → ℝ) (fuel : ℕ)
    {p p' : Plane} (h : Relabels p p') {o o' : Analyser}
    (ho : openMachUp table mem p = .ok o) (ho' : openMachUp table mem p' = .ok o') :
    ∃ σ : Fin (sectionsOf o.wing) ≃ Fin (sectionsOf o'.wing), (∀ i, (σ i).val = i.val) ∧
      (∀ (bad : _) (bad' : _) (calls : List (AeroDict (Fin (sectionsOf o.wing)) × Option CtrlDict × Option PropDict)),
        (∀ c ∈ calls, c.1.truthy = true) →
        List.Forall₂ (Outcome fun T T' => T' = T)
          (solveSeq (o.fresh p simps fuel bad none none) (calls.map fun c => ⟨some c.1, c.2.1, c.2.2⟩))
          (solveSeq (o'.fresh p' simps fuel bad' none none) (calls.map fun c => ⟨some (c.1.reindex σ), c.2.1, c.2.2⟩))) ∧
      ∀ (bad : _) (bad' : _) (d : AeroDict (Fin (sectionsOf o.wing))) (c : Option CtrlDict) (ps : Option PropDict),
        d.Vmag.isSome → d.rho.isSome →
        let w := o.fresh p simps fuel bad (some d) c
        let w' := o'.fresh p' simps fuel bad' (some (d.reindex σ)) c
        (derivatives ps none w').1 = (derivatives ps none w).1 ∧
        (stabilityDerivatives ps w').1 = (stabilityDerivatives ps w).1 ∧
        (controlDerivatives ps w').1 = (controlDerivatives ps w).1 ∧
        (dampingDerivatives ps w').1 = (dampingDerivatives ps w).1 := by
  obtain ⟨σ, g0, hO, hslots, g4⟩ := objSim_relabel h ho ho'
  refine ⟨σ, g0, fun bad bad' calls hd => ?_, fun bad bad' d c ps hV hr => ?_⟩
  · have key : ∀ (calls : List (AeroDict (Fin (sectionsOf o.wing)) × Option CtrlDict × Option PropDict)) (w : World (o.backend p simps fuel bad))
        (w' : World (o'.backend p' simps fuel bad')),
        (∀ c ∈ calls, c.1.truthy = true) → StSim (moveScl 0) (fun st st' => st' = st) σ w.st w'.st →
        List.Forall₂ (Outcome fun T T' => T' = T) (solveSeq w (calls.map fun c => ⟨some c.1, c.2.1, c.2.2⟩))
          (solveSeq w' (calls.map fun c => ⟨some (c.1.reindex σ), c.2.1, c.2.2⟩)) := by
      intro calls
      induction calls with
      | nil => intro w w' _ _; exact .nil
      | cons c t ih =>
        intro w w' hd hst
        have := muSolve_relabel hO g4 { w with aero := some c.1, ctrl := c.2.1 }
          { w' with aero := some (c.1.reindex σ), ctrl := c.2.1 } (hd c (by simp)) rfl rfl rfl c.2.2 hst
        exact .cons this.1 (ih _ _ (fun c hc => hd c (by simp [hc])) this.2)
    exact key calls _ _ hd ⟨⟨fun _ => rfl, fun _ => rfl⟩, hslots⟩
  · obtain ⟨V, hV⟩ := Option.isSome_iff_exists.1 hV
    obtain ⟨r, hr⟩ := Option.isSome_iff_exists.1 hr
    intro w w'
    have hs := like_muSolve_relabel hO g4 (simps := simps) (fuel := fuel) (bad := bad) (bad' := bad') ps
    have hA : LikeWorld 1 1 1 σ (StSim (moveScl 0) (fun st st' => st' = st) σ) w w' :=
      ⟨⟨d, V, r, rfl, hV, hr, by rw [similar_one]; rfl⟩, rfl, ⟨fun _ => rfl, fun _ => rfl⟩, hslots⟩
    obtain ⟨hw, -⟩ := slots_cases ho
    obtain ⟨hw', -⟩ := slots_cases ho'
    obtain ⟨r1, r2, r3⟩ := refs_relabel h hw hw'
    have hR : RefSim 1 (o.backend p simps fuel bad) (o'.backend p' simps fuel bad') :=
      ⟨by show (!p'.wings.isEmpty) = !p.wings.isEmpty; rw [hO.wings], r1.trans (by rw [one_pow, one_mul]; rfl), r2.trans (one_mul _).symm, r3.trans (one_mul _).symm⟩
    exact ⟨(like_derivatives hs hR one_ne_zero (by norm_num) _ _ hA).1.eq, (like_stab hs hR one_ne_zero (by norm_num) _ _ hA).1.eq,
      (like_cont hs hR one_ne_zero (by norm_num) _ _ hA).1.eq, (like_damp hs hR one_ne_zero (by norm_num) _ _ hA).1.eq⟩

end Verif
