import Verif.Lemmas.PropMirror
import Verif.Thm.PlaneMirror
import Verif.Thm.Session

/-!
# The mirror image of an aircraft with propellers (C117)
-/

namespace Verif
open V3 Act

theorem mkWingPart_mirror {p p' : Plane} (h : PlaneMir p p') (h1 : p'.latRef = p.latRef) (h2 : p'.longRef = p.longRef) {w : Option WingPart} (hw : mkWingPart p = .ok w) :
    ∃ w', mkWingPart p' = .ok w' := by
  unfold mkWingPart at hw ⊢
  rw [h.wings]
  by_cases h0 : p.wings = []
  · rw [if_pos h0]; exact ⟨_, rfl⟩
  · rw [if_neg h0] at hw ⊢
    cases hg : mkGrid p true with
    | error e => rw [hg] at hw; cases hw
    | ok g =>
      obtain ⟨g', hg'⟩ := h.exists_grid hg
      obtain ⟨-, hr⟩ := h.grids hg hg'
      rw [hg] at hw
      rw [hg']
      simp only [bind, Except.bind] at hw ⊢
      rw [hr, h.refLengths h1 h2]
      cases hl : refLengths p g.refArea with
      | error e => rw [hl] at hw; cases hw
      | ok l => exact ⟨_, rfl⟩

theorem openProps_mirror {ι ι' : Type} (table : String → ℝ → ℝ) (mem : String → ℕ → ℕ → Option ℝ) {p p' : Plane}
    (h : CraftMir p p') (hu : p'.units = p.units) (pts : Option (ι → V3)) (pts' : Option (ι' → V3)) :
    openProps table mem p' pts' =
      (openProps table mem p pts).map fun s => s.map fun sl =>
        { name := sl.name, model := sl.model.mirror pts', st := sl.st } := by
  have hU : p'.getUnits = p.getUnits := by unfold Plane.getUnits; rw [hu]
  have key : ∀ (l : List PropGeom) (d : List (String × PropM ι)),
      (l.map PropGeom.mirror).foldlM (fun (d : List (String × PropM ι')) q => do
        let u ← p'.getUnits
        let m ← mkPropM table q p'.cg u pts'
        return dictSet d q.name m) (d.map fun (kv : String × PropM ι) => (kv.1, kv.2.mirror pts')) =
      (l.foldlM (fun (d : List (String × PropM ι)) q => do
        let u ← p.getUnits
        let m ← mkPropM table q p.cg u pts
        return dictSet d q.name m) d).map fun (d : List (String × PropM ι)) => d.map fun (kv : String × PropM ι) => (kv.1, kv.2.mirror pts') := by
    intro l d
    rw [List.foldlM_map]
    refine foldlM_image (fun (d : List (String × PropM ι)) => d.map fun (kv : String × PropM ι) => (kv.1, kv.2.mirror pts')) ?_ l d
    intro d q
    rw [hU, h.cg]
    cases p.getUnits with
    | error e => rfl
    | ok u =>
      simp only [bind, Except.bind]
      rw [mkPropM_mirror table q p.cg u pts pts']
      cases mkPropM table q p.cg u pts with
      | error e => rfl
      | ok m =>
        simp only [Except.map, pure, Except.pure]
        exact congrArg Except.ok (dictSet_map (fun _ (a : PropM ι) => a.mirror pts') d q.name m).symm
  have k := key (p.props.map Prod.snd) []
  unfold openProps
  have hp : p'.props.map Prod.snd = (p.props.map Prod.snd).map PropGeom.mirror := by
    rw [h.props, List.map_map, List.map_map]; rfl
  rw [hp]
  rw [List.map_nil] at k
  rw [k]
  cases ((p.props.map Prod.snd).foldlM (fun d q => do
        let u ← p.getUnits
        let m ← mkPropM table q p.cg u pts
        return dictSet d q.name m) ([] : List (String × PropM ι)) : Except PyErr (List (String × PropM ι))) with
  | error e => rfl
  | ok d =>
    simp only [Except.map, bind, Except.bind, pure, Except.pure, List.map_map]
    rfl

/-! ### `solve` on two objects -/

section
variable {ι ι' : Type}

/-- `solve` gives mirrored results if its two parts do. -/
theorem solveParts_mirror {B : Backend ι} {B' : Backend ι'} (σ : ι ≃ ι') {ps : Option B.π} {ps' : Option B'.π}
    (hP : B'.hasProps = B.hasProps) (hW : B'.hasWings = B.hasWings)
    {w : World B} {w' : World B'} {d : AeroDict ι} (hd : w.aero = some d) (hd' : w'.aero = some (d.mirror.reindex σ))
    (R : B.σ → B'.σ → Prop) (hR : R w.st w'.st)
    (hp : Outcome (fun r r' => r'.1 = r.1.mirror ∧ r'.2 = r.2.map fun f i' => ((f (σ.symm i')).1, mir (f (σ.symm i')).2))
        (B.propSolve d ps w.st).1 (B'.propSolve (d.mirror.reindex σ) ps' w'.st).1 ∧
      R (B.propSolve d ps w.st).2 (B'.propSolve (d.mirror.reindex σ) ps' w'.st).2)
    (hw : ∀ f st st', (f = d.localState ∨ f.isSome = true) → R st st' →
      Outcome (fun S S' => S'.total = S.total.mirror) (B.wingSolve { d with localState := f } w.ctrl st).1
        (B'.wingSolve (({ d with localState := f } : AeroDict ι).mirror.reindex σ) w'.ctrl st').1 ∧
      R (B.wingSolve { d with localState := f } w.ctrl st).2
        (B'.wingSolve (({ d with localState := f } : AeroDict ι).mirror.reindex σ) w'.ctrl st').2) :
    Outcome (fun r r' => r'.2.1 = r.2.1.map PropTotals.mirror ∧ r'.2.2 = r.2.2.mirror) (solveParts ps w).1 (solveParts ps' w').1 ∧
      R (solveParts ps w).2.st (solveParts ps' w').2.st := by
  have hadd : ∀ a b : Loads, a.mirror.add b.mirror = (a.add b).mirror := by
    intro a b; simp only [Loads.mirror, Loads.add, Loads.mk.injEq, true_and]
    refine ⟨?_, ?_, ?_, ?_⟩ <;> ring
  have hz : Loads.zero.mirror = Loads.zero := by simp [Loads.mirror, Loads.zero]
  have htot : ∀ (pr : Option PropTotals) (s : Option (Sol ι)) (s' : Option (Sol ι')),
      s'.map (·.total) = (s.map (·.total)).map Loads.mirror →
      totalOf (pr.map PropTotals.mirror) s' = (totalOf pr s).mirror := by
    intro pr s s' hs
    unfold totalOf
    rw [hs, ← hadd]
    cases pr <;> cases s <;> simp [hz, PropTotals.mirror]
  -- the wing part and what follows
  have wing : ∀ (pr : Option PropTotals) (f : Option (ι → ℝ × V3)) (w1 : World B) (w1' : World B'), (f = d.localState ∨ f.isSome = true) → w1.ctrl = w.ctrl → w1'.ctrl = w'.ctrl →
      R w1.st w1'.st → w1.aero = some { d with localState := f } →
      w1'.aero = some (({ d with localState := f } : AeroDict ι).mirror.reindex σ) →
      Outcome (fun r r' => r'.2.1 = r.2.1.map PropTotals.mirror ∧ r'.2.2 = r.2.2.mirror)
        ((solveWings >>= fun wing => (do
            Act.change fun w => { w with objs := w.objs ++ [totalOf pr wing] }
            return (wing, pr, totalOf pr wing)) : Act (World B) _) w1).1
        ((solveWings >>= fun wing => (do
            Act.change fun w => { w with objs := w.objs ++ [totalOf (pr.map PropTotals.mirror) wing] }
            return (wing, pr.map PropTotals.mirror, totalOf (pr.map PropTotals.mirror) wing)) : Act (World B') _) w1').1 ∧
      R ((solveWings >>= fun wing => (do
            Act.change fun w => { w with objs := w.objs ++ [totalOf pr wing] }
            return (wing, pr, totalOf pr wing)) : Act (World B) _) w1).2.st
        ((solveWings >>= fun wing => (do
            Act.change fun w => { w with objs := w.objs ++ [totalOf (pr.map PropTotals.mirror) wing] }
            return (wing, pr.map PropTotals.mirror, totalOf (pr.map PropTotals.mirror) wing)) : Act (World B') _) w1').2.st := by
    intro pr f w1 w1' hf hc hc' hr ha ha'
    rw [bind_def, bind_def]
    unfold solveWings
    rw [hW]
    by_cases hw0 : B.hasWings = true
    · rw [if_pos hw0, if_pos hw0, get_bind, get_bind, bind_def, bind_def]
      unfold onSolver
      rw [ha, ha', hc, hc', Option.getD_some, Option.getD_some]
      have := hw f _ _ hf hr
      revert this
      generalize B.wingSolve _ w.ctrl w1.st = A
      generalize B'.wingSolve _ w'.ctrl w1'.st = A'
      intro this
      obtain ⟨this, hr2⟩ := this
      rcases A with ⟨e | S, s1⟩ <;> rcases A' with ⟨e' | S', s1'⟩ <;> simp only [Outcome] at this
      · exact ⟨this, hr2⟩
      · exact ⟨⟨rfl, htot pr (some S) (some S') (by simp [this])⟩, hr2⟩
    · rw [if_neg hw0, if_neg hw0]
      exact ⟨⟨rfl, htot pr none none rfl⟩, hr⟩
  unfold solveParts
  rw [bind_of_ok (show getAero id w = (.ok d, w) by unfold getAero; rw [hd]; rfl),
    bind_of_ok (show getAero id w' = (.ok (d.mirror.reindex σ), w') by unfold getAero; rw [hd']; rfl)]
  unfold solveProps
  rw [hP]
  by_cases hp0 : B.hasProps = true
  · simp only [hp0, if_true]
    rw [bind_def, bind_def, bind_def, bind_def]
    unfold onSolver
    revert hp
    generalize B.propSolve d ps w.st = A
    generalize B'.propSolve _ ps' w'.st = A'
    rintro ⟨g1, g2⟩
    rcases A with ⟨e | ⟨r, f⟩, s1⟩ <;> rcases A' with ⟨e' | ⟨r', f'⟩, s1'⟩ <;> simp only [Outcome] at g1
    · exact ⟨g1, g2⟩
    · obtain ⟨rfl, rfl⟩ := g1
      rcases f with _ | f
      · exact wing (some r) d.localState { w with st := s1 } { w' with st := s1' } (.inl rfl) rfl rfl g2 hd hd'
      · simp only [Option.map_some]
        unfold setAero
        simp only [bind_def, hd, hd', pure_run]
        exact wing (some r) (some f) { w with st := s1, aero := _ } { w' with st := s1', aero := _ } (.inr rfl) rfl rfl g2 rfl rfl
  · simp only [hp0]
    exact wing none d.localState w w' (.inl rfl) rfl rfl hR hd hd'

end

theorem slots_cases {table : String → ℝ → ℝ} {mem : String → ℕ → ℕ → Option ℝ} {p : Plane} {o : Analyser}
    (h : openMachUp table mem p = .ok o) : mkWingPart p = .ok o.wing ∧
      ((p.props = [] ∧ o.slots = none) ∨
        (p.props ≠ [] ∧ ∃ s, o.slots = some s ∧ openProps table mem p (pointsOf o.wing) = .ok s)) := by
  unfold openMachUp at h
  cases hw : mkWingPart p with
  | error e => rw [hw] at h; cases h
  | ok w =>
    rw [hw] at h
    change (if p.props = [] then _ else _) = _ at h
    by_cases hp : p.props = []
    · rw [if_pos hp] at h
      cases h
      exact ⟨rfl, .inl ⟨hp, rfl⟩⟩
    · rw [if_neg hp] at h
      cases hs : openProps table mem p (pointsOf w) with
      | error e => rw [hs] at h; cases h
      | ok s =>
        rw [hs] at h
        cases h
        exact ⟨rfl, .inr ⟨hp, s, rfl, hs⟩⟩

theorem open_of {table : String → ℝ → ℝ} {mem : String → ℕ → ℕ → Option ℝ} {p p' : Plane} (h : CraftMir p p')
    (hu : p'.units = p.units) {o : Analyser} (ho : openMachUp table mem p = .ok o) : ∃ o', openMachUp table mem p' = .ok o' := by
  obtain ⟨hw, hs⟩ := slots_cases ho
  obtain ⟨w', hw'⟩ := mkWingPart_mirror h.toPlaneMir h.latRef h.longRef hw
  unfold openMachUp
  rw [hw']
  change ∃ o', (if p'.props = [] then _ else _) = _
  rcases hs with ⟨hp, -⟩ | ⟨hp, s, -, hs⟩
  · rw [if_pos (by rw [h.props, hp]; rfl)]
    exact ⟨_, rfl⟩
  · rw [if_neg (by rw [h.props]; simpa using hp)]
    rw [openProps_mirror table mem h hu (pointsOf o.wing) (pointsOf w'), hs]
    exact ⟨_, rfl⟩

theorem open_back {table : String → ℝ → ℝ} {mem : String → ℕ → ℕ → Option ℝ} {p p' : Plane} (h : CraftMir p p')
    (hu : p'.units = p.units) {o' : Analyser} (ho : openMachUp table mem p' = .ok o') : ∃ o, openMachUp table mem p = .ok o := by
  obtain ⟨hw, hs⟩ := slots_cases ho
  obtain ⟨w, hw⟩ := mkWingPart_mirror h.toPlaneMir.symm h.latRef.symm h.longRef.symm hw
  unfold openMachUp
  rw [hw]
  change ∃ o, (if p.props = [] then _ else _) = _
  rcases hs with ⟨hp, -⟩ | ⟨hp, s, -, hs⟩
  · rw [if_pos (by rw [h.props] at hp; simpa using hp)]
    exact ⟨_, rfl⟩
  · rw [if_neg (by rw [h.props] at hp; simpa using hp)]
    rw [openProps_mirror table mem h hu (pointsOf w) (pointsOf o'.wing)] at hs
    cases hq : openProps table mem p (pointsOf w) with
    | error e => rw [hq] at hs; cases hs
    | ok s => exact ⟨_, rfl⟩

theorem flowMir_of {ι ι' : Type} [Fintype ι] [DecidableEq ι] [Fintype ι'] [DecidableEq ι'] (σ : ι ≃ ι') (d : AeroDict ι) : FlowMir (some d) (some (d.mirror.reindex σ)) :=
  ⟨by rw [truthy_reindex, truthy_mirror], rfl, rfl, rfl, by simp [AeroDict.mirror, AeroDict.reindex, getD_map_neg]⟩

theorem slotMir_withCg {ι ι' : Type} {N : String → String → Prop} (cg : V3) {s : List (PropSlot ι)} {s' : List (PropSlot ι')}
    (h : List.Forall₂ (SlotMir N) s s') :
    List.Forall₂ (SlotMir N) (s.map (·.withCg cg)) (s'.map (·.withCg (mir cg))) := by
  induction h with
  | nil => exact .nil
  | cons h1 _ ih => exact .cons ⟨h1.name, { h1.model with cg := rfl }, h1.st⟩ ih

/-- the outcomes of a sequence of `solve` calls on one object, the caller catching exceptions -/
noncomputable def solveSeq {ι : Type} {B : Backend ι} (w : World B) : List (MUCall B) → List (Except PyErr Loads)
  | [] => []
  | k :: t => (muSolve k.ps { w with aero := k.aero, ctrl := k.ctrl }).1 :: solveSeq (muSolve k.ps { w with aero := k.aero, ctrl := k.ctrl }).2 t

/-- `o'` is the mirror image of `o` as far as `solve` can tell -/
structure ObjMir (o o' : Analyser) (p p' : Plane) (σ : Fin (sectionsOf o.wing) ≃ Fin (sectionsOf o'.wing)) : Prop where
  props : p'.props.isEmpty = p.props.isEmpty
  wings : p'.wings.isEmpty = p.wings.isEmpty
  cg : p'.cg = mir p.cg
  wing : o'.wing.isSome = o.wing.isSome
  slots : o'.slots.isSome = o.slots.isSome
  points : pointsOf o'.wing = (pointsOf o.wing).map (fun f i' => mir (f (σ.symm i')))
  solves : ∀ (d : AeroDict (Fin (sectionsOf o.wing))) (c : Option CtrlDict) (st : LLState (Fin (sectionsOf o.wing))) (st' : LLState (Fin (sectionsOf o'.wing))),
    d.truthy = true → o.wing.isSome = true → CtrlImage σ st.ctrl st'.ctrl →
        Outcome (fun S S' => S'.total = S.total.mirror ∧ SameSections σ S S')
          (llSolve (geomOf p.cg o.wing) st "linear" (some d) c).1
          (llSolve (geomOf p'.cg o'.wing) st' "linear" (some (d.mirror.reindex σ)) (c.map CtrlDict.mirror)).1 ∧
        CtrlImage σ (llSolve (geomOf p.cg o.wing) st "linear" (some d) c).2.ctrl
          (llSolve (geomOf p'.cg o'.wing) st' "linear" (some (d.mirror.reindex σ)) (c.map CtrlDict.mirror)).2.ctrl

/-- the states of mirrored objects: mirrored control deflections, propellers in the same states -/
def StMir {ι ι' : Type} (σ : ι ≃ ι') (N : String → String → Prop) (st : LLState ι × List (PropSlot ι)) (st' : LLState ι' × List (PropSlot ι')) : Prop :=
  CtrlImage σ st.1.ctrl st'.1.ctrl ∧ List.Forall₂ (SlotMir N) st.2 st'.2

theorem ObjMir.muSolve {o o' : Analyser} {p p' : Plane} {σ : Fin (sectionsOf o.wing) ≃ Fin (sectionsOf o'.wing)} (h : ObjMir o o' p p' σ)
    {N : String → String → Prop} {simps : List ℝ → List ℝ → ℝ} {fuel : ℕ} {bad : _} {bad' : _} {w : World (o.backend p simps fuel bad)}
    {w' : World (o'.backend p' simps fuel bad')} {d : AeroDict (Fin (sectionsOf o.wing))} {c : Option CtrlDict} (hd : d.truthy = true)
    (ha : w.aero = some d) (hc : w.ctrl = c) (ha' : w'.aero = some (d.mirror.reindex σ)) (hc' : w'.ctrl = c.map CtrlDict.mirror)
    (ps : Option PropDict) (hN : ∀ a b, N a b → localPS (ps.getD []) b = localPS (ps.getD []) a) (hst : StMir σ N w.st w'.st) :
    Outcome (fun T T' => T' = T.mirror) (muSolve ps w).1 (muSolve ps w').1 ∧ StMir σ N (muSolve ps w).2.st (muSolve ps w').2.st := by
  have main := solveParts_mirror (B := o.backend p simps fuel bad) (B' := o'.backend p' simps fuel bad') σ (ps := ps) (ps' := ps)
    (by show (!p'.props.isEmpty) = !p.props.isEmpty; rw [h.props])
    (by show (!p'.wings.isEmpty) = !p.wings.isEmpty; rw [h.wings])
    (w := w) (w' := w') (d := d) ha ha' (StMir σ N) hst ?_ ?_
  · unfold Verif.muSolve
    rw [get_bind, get_bind, if_pos (show aeroGiven w = true by simpa [aeroGiven, ha] using hd),
      if_pos (show aeroGiven w' = true by simpa [aeroGiven, ha', truthy_reindex, truthy_mirror] using hd), bind_def, bind_def]
    revert main
    generalize solveParts ps w = A
    generalize solveParts ps w' = A'
    rintro ⟨main, m2⟩
    rcases A with ⟨e | ⟨x, y, z⟩, s1⟩ <;> rcases A' with ⟨e' | ⟨x', y', z'⟩, s1'⟩ <;> simp only [Outcome] at main
    · exact ⟨main, m2⟩
    · exact ⟨main.2, m2⟩
  · obtain ⟨h1, h2⟩ := hst
    generalize w.st = st at *
    generalize w'.st = st' at *
    obtain ⟨l, s⟩ := st
    obtain ⟨l', s'⟩ := st'
    simp only [Analyser.backend, Analyser.backendOf] at *
    rw [h.slots]
    by_cases hsome : o.slots.isSome = true
    · simp only [hsome, if_true]
      have := propsSolve_mirror simps fuel σ (flowMir_of σ d) (ps.getD []) hN (pts := if !p.wings.isEmpty then pointsOf o.wing else none)
        (pts' := if !p'.wings.isEmpty then pointsOf o'.wing else none) (by rw [h.wings]; split_ifs; exacts [h.points, rfl])
        (slotMir_withCg p.cg h2)
      rw [← h.cg] at this
      revert this
      generalize propsSolve simps fuel _ (some d) (ps.getD []) _ = A
      generalize propsSolve simps fuel _ (some _) (ps.getD []) _ = A'
      rintro ⟨k1, k2⟩
      rcases A with ⟨e | r, s1⟩ <;> rcases A' with ⟨e' | r', s1'⟩ <;> simp [Except.map] at k1
      · exact ⟨k1.symm, h1, k2⟩
      · exact ⟨by subst k1; exact ⟨rfl, rfl⟩, h1, k2⟩
    · simp only [hsome]
      exact ⟨rfl, h1, h2⟩
  · rintro f ⟨st, s⟩ ⟨st', s'⟩ hf ⟨h1, h2⟩
    rw [hc, hc']
    simp only [Analyser.backend, Analyser.backendOf]
    rw [h.wing]
    by_cases hi : o.wing.isSome = true
    · simp only [hi, if_true]
      have := h.solves { d with localState := f } c st st' (by
        rcases hf with rfl | hf
        · exact hd
        · simp [AeroDict.truthy, hf]) hi h1
      exact ⟨this.1.mono fun _ _ _ _ k => k.1, this.2, h2⟩
    · simp only [hi]
      exact ⟨rfl, h1, h2⟩

/-- the objects of an aircraft and its mirror image -/
theorem objMir_of {table : String → ℝ → ℝ} {mem : String → ℕ → ℕ → Option ℝ} {p p' : Plane} (h : CraftMir p p') (hu : p'.units = p.units) {o o' : Analyser}
    (ho : openMachUp table mem p = .ok o) (ho' : openMachUp table mem p' = .ok o') :
    ∃ σ : Fin (sectionsOf o.wing) ≃ Fin (sectionsOf o'.wing),
      (∀ i, ((geomOf p'.cg o'.wing).S (σ i)).rcp = mir ((geomOf p.cg o.wing).S i).rcp) ∧
      (∀ i, ((geomOf p'.cg o'.wing).S (σ i)).clMax = ((geomOf p.cg o.wing).S i).clMax) ∧
      ObjMir o o' p p' σ ∧ List.Forall₂ (SlotMir fun a b => b = a) (o.slots.getD []) (o'.slots.getD []) := by
  obtain ⟨hw, hs⟩ := slots_cases ho
  obtain ⟨hw', hs'⟩ := slots_cases ho'
  -- the sections and their loads
  have hσ : ∃ σ : Fin (sectionsOf o.wing) ≃ Fin (sectionsOf o'.wing),
      (∀ i, ((geomOf p'.cg o'.wing).S (σ i)).rcp = mir ((geomOf p.cg o.wing).S i).rcp) ∧
      (∀ i, ((geomOf p'.cg o'.wing).S (σ i)).clMax = ((geomOf p.cg o.wing).S i).clMax) ∧
      o'.wing.isSome = o.wing.isSome ∧
      pointsOf o'.wing = (pointsOf o.wing).map (fun f i' => mir (f (σ.symm i'))) ∧
      ∀ (d : AeroDict (Fin (sectionsOf o.wing))) (c : Option CtrlDict) (st : LLState (Fin (sectionsOf o.wing))) (st' : LLState (Fin (sectionsOf o'.wing))),
        d.truthy = true → o.wing.isSome = true → CtrlImage σ st.ctrl st'.ctrl →
        Outcome (fun S S' => S'.total = S.total.mirror ∧ SameSections σ S S')
          (llSolve (geomOf p.cg o.wing) st "linear" (some d) c).1
          (llSolve (geomOf p'.cg o'.wing) st' "linear" (some (d.mirror.reindex σ)) (c.map CtrlDict.mirror)).1 ∧
        CtrlImage σ (llSolve (geomOf p.cg o.wing) st "linear" (some d) c).2.ctrl
          (llSolve (geomOf p'.cg o'.wing) st' "linear" (some (d.mirror.reindex σ)) (c.map CtrlDict.mirror)).2.ctrl := by
    obtain ⟨w, sl⟩ := o
    obtain ⟨w', sl'⟩ := o'
    simp only at hw hw'
    have hcase := wing_isSome hw
    have hcase' := wing_isSome hw'
    rw [h.wings] at hcase'
    rcases w with _ | W
    · rcases w' with _ | W'
      · refine ⟨Equiv.refl (Fin 0), fun i => i.elim0, fun i => i.elim0, rfl, rfl, fun d c st st' hd hi => by simp at hi⟩
      · simp at hcase hcase'; exact absurd hcase hcase'
    · rcases w' with _ | W'
      · simp at hcase hcase'; exact absurd hcase' hcase
      · have hg := wing_grid hw
        have hg' := wing_grid hw'
        obtain ⟨h1, -⟩ := h.toPlaneMir.grids hg hg'
        obtain ⟨σ, hσ⟩ := h1.equiv
        have h1 : ∀ i, (W'.grid.data.get (σ i)).rcp = mir (W.grid.data.get i).rcp := fun i => by simpa using (hσ i).image.rcp
        refine ⟨σ, h1, fun i => (hσ i).clMax, rfl, ?_, fun d c st st' hd _ hC => ?_⟩
        · simp only [pointsOf, Option.map_some, Option.some.injEq]
          funext i'
          have := h1 (σ.symm i')
          have e2 : σ (σ.symm i') = i' := σ.apply_symm_apply i'
          exact (congrArg (fun i => (W'.grid.data.get i).rcp) e2).symm.trans this
        · obtain ⟨k1, k2⟩ := llSolve_mirrored σ hσ h.cg d c hd hC
          exact ⟨k1.mono fun _ _ _ _ k => ⟨k.2.2.1, k.2.2.2.1⟩, k2⟩
  obtain ⟨σ, g1, g0, g2, g3, g4⟩ := hσ
  have hslots : o'.slots.isSome = o.slots.isSome ∧ List.Forall₂ (SlotMir fun a b => b = a) (o.slots.getD []) (o'.slots.getD []) := by
    rcases hs with ⟨q, q1⟩ | ⟨q, s, q1, q2⟩ <;> rcases hs' with ⟨q', q1'⟩ | ⟨q', s', q1', q2'⟩
    · rw [q1, q1']; exact ⟨rfl, .nil⟩
    · rw [h.props, q] at q'; exact absurd rfl q'
    · rw [h.props] at q'; simp at q'; exact absurd q' q
    · rw [q1, q1']
      refine ⟨rfl, ?_⟩
      rw [openProps_mirror table mem h hu (pointsOf o.wing) (pointsOf o'.wing), q2] at q2'
      cases q2'
      simp only [Option.getD_some]
      clear q1 q2 q1'
      induction s with
      | nil => exact .nil
      | cons a t ih => exact .cons ⟨rfl, mirM_mirror _ _, rfl⟩ ih
  exact ⟨σ, g1, g0, ⟨by rw [h.props]; simp, by rw [h.wings], h.cg, g2, hslots.1, g3, g4⟩, hslots.2⟩

/-- **C117.** Build an aircraft twice, the second time with mirrored calls: left and right exchanged, lateral positions
and propeller headings negated, propellers turning the other way.  A `MachUp` object can be constructed for the second one iff it
can for the first one.  Make a sequence of `solve` calls on both, with mirrored flow, mirrored controls and the same propeller
states on the second one.  Each call on the second one fails with the same exception as the one on the first one, or gives the
same `FL, FD, FX, FZ, MY` and the negated `FS, FY, MX, MZ`. -/
theorem C117_mirror (table : String → ℝ → ℝ) (mem : String → ℕ → ℕ → Option ℝ) (simps : List ℝ → List ℝ → ℝ) (fuel : ℕ)
    (nm : String) (pos : Option V3) (ops : List PlaneOp) (units : Option (Option String)) (p p' : Plane)
    (hp : p = { built nm pos ops with units })
    (hp' : p' = { built nm (pos.map mir) (ops.map PlaneOp.mirror) with units }) :
    ((∃ o, openMachUp table mem p = .ok o) ↔ ∃ o', openMachUp table mem p' = .ok o') ∧
    ∀ o o' : Analyser, openMachUp table mem p = .ok o → openMachUp table mem p' = .ok o' →
      ∃ σ : Fin (sectionsOf o.wing) ≃ Fin (sectionsOf o'.wing),
        (∀ i, ((geomOf p'.cg o'.wing).S (σ i)).rcp = mir ((geomOf p.cg o.wing).S i).rcp) ∧
        ∀ (bad : _) (bad' : _) (calls : List (AeroDict (Fin (sectionsOf o.wing)) × Option CtrlDict × Option PropDict)),
          (∀ k ∈ calls, k.1.truthy = true) →
          List.Forall₂ (Outcome fun T T' => T' = T.mirror)
            (solveSeq (o.fresh p simps fuel bad none none) (calls.map fun k => ⟨some k.1, k.2.1, k.2.2⟩))
            (solveSeq (o'.fresh p' simps fuel bad' none none)
              (calls.map fun k => ⟨some (k.1.mirror.reindex σ), k.2.1.map CtrlDict.mirror, k.2.2⟩)) := by
  have h : CraftMir p p' := by
    have := built_craft nm pos ops
    rw [hp, hp']
    exact { this with }
  have hu : p'.units = p.units := by rw [hp, hp']
  refine ⟨⟨fun ⟨o, ho⟩ => open_of h hu ho, fun ⟨o, ho⟩ => open_back h hu ho⟩, fun o o' ho ho' => ?_⟩
  obtain ⟨σ, g1, -, hO, hslots⟩ := objMir_of h hu ho ho'
  refine ⟨σ, g1, fun bad bad' calls hd => ?_⟩
  have key : ∀ (calls : List (AeroDict (Fin (sectionsOf o.wing)) × Option CtrlDict × Option PropDict)) (w : World (o.backend p simps fuel bad))
      (w' : World (o'.backend p' simps fuel bad')), (∀ k ∈ calls, k.1.truthy = true) → StMir σ (fun a b => b = a) w.st w'.st →
      List.Forall₂ (Outcome fun T T' => T' = T.mirror) (solveSeq w (calls.map fun k => ⟨some k.1, k.2.1, k.2.2⟩))
        (solveSeq w' (calls.map fun k => ⟨some (k.1.mirror.reindex σ), k.2.1.map CtrlDict.mirror, k.2.2⟩)) := by
    intro calls
    induction calls with
    | nil => intro w w' _ _; exact .nil
    | cons k t ih =>
      intro w w' hd hst
      have := hO.muSolve (w := { w with aero := some k.1, ctrl := k.2.1 }) (w' := { w' with aero := some (k.1.mirror.reindex σ), ctrl := k.2.1.map CtrlDict.mirror })
        (hd k (by simp)) rfl rfl rfl rfl k.2.2 (by rintro a b rfl; rfl) hst
      exact .cons this.1 (ih _ _ (fun k hk => hd k (by simp [hk])) this.2)
  exact key calls _ _ hd ⟨⟨fun _ => rfl, fun _ => rfl⟩, hslots⟩

/-- **C117** for one propeller. The propeller model of the mirrored propeller can be constructed if and only if that of the
original can, and when both are run in mirrored flows with the same `prop_state` and the same earlier history, both runs end
alike, with the same next state; the runs of the mirrored propeller give the same thrust, rotation rate and coefficients, the
opposite torque, the mirrored force and moment, and the mirrored slipstream velocity at the mirrored point. -/
theorem C117_propeller {ι : Type} [Fintype ι] [DecidableEq ι] (table : String → ℝ → ℝ) (simps : List ℝ → List ℝ → ℝ) (fuel : ℕ) (q : PropGeom) (cg : V3)
    (u : Option String) (pts pts' : Option (ι → V3)) :
    ((∃ M, mkPropM table q cg u pts = .ok M) ↔ ∃ M', mkPropM table q.mirror (mir cg) u pts' = .ok M') ∧
    ∀ M M' : PropM ι, mkPropM table q cg u pts = .ok M → mkPropM table q.mirror (mir cg) u pts' = .ok M' →
      ∀ (aero : Option (AeroDict ι)) (s : PropDict) (st : PropSt),
        Outcome (fun o o' => o'.T = o.T ∧ o'.n = o.n ∧ o'.c = o.c ∧ o'.l = -o.l ∧ o'.F = ⟨o.F.x, -o.F.y, o.F.z⟩ ∧
            o'.M = ⟨-o.M.x, o.M.y, -o.M.z⟩ ∧
            ∀ V x, propVel M' V o'.n o'.c (mir x) = (propVel M V o.n o.c x).map mir)
          (runProp simps fuel M aero s st).1 (runProp simps fuel M' (aero.map AeroDict.mirror) s st).1 ∧
        (runProp simps fuel M' (aero.map AeroDict.mirror) s st).2 = (runProp simps fuel M aero s st).2 := by
  refine ⟨?_, fun M M' h h' aero s st => ?_⟩
  · rw [mkPropM_mirror table q cg u pts pts']
    cases mkPropM table q cg u pts <;> simp [Except.map]
  · rw [mkPropM_mirror table q cg u pts pts', h] at h'
    cases h'
    have hM := mirM_mirror M pts'
    have hf : FlowMir aero (aero.map AeroDict.mirror) := by
      rcases aero with _ | d
      · exact trivial
      · exact ⟨truthy_mirror d, rfl, rfl, rfl, by simp [AeroDict.mirror, getD_map_neg]⟩
    rw [runProp_mirror simps fuel hM hf]
    refine ⟨?_, rfl⟩
    cases (runProp simps fuel M aero s st).1 with
    | error e => exact rfl
    | ok o =>
      refine ⟨rfl, rfl, rfl, rfl, rfl, ?_, fun V x => propVel_mirror hM V _ _ x⟩
      ext <;> simp [PropOut.mirror]

/-! ### A propeller aircraft -/

/-- the keywords for `demoProp` -/
noncomputable def demoPropDims : PropDims :=
  { position := some ⟨-1, 0, 0⟩, nodes := some 2, diameter := some 2, hubDiameter := some 1, blades := some 2
    rotDir := some (.str "CCW"), pitch := some { type := some "ratio", value := some 1 }
    chord := some { type := some "linear", root := some 0.07585, tip := some 0.1515483 } }

/-- an aircraft that has nothing but a propeller -/
noncomputable def rotorOps : List PlaneOp :=
  [.addProp "prop" demoPropDims,
    .propAirfoil "prop" "sym" { al0 := some 0, cla := some 6, clMax := some 1.2, cml0 := some 0, cma := some 0, cd0 := some 0.01, cd1 := some 0, cd2 := some 0.01 }]

theorem rotor_props : (built "rotor" none rotorOps).props = [("prop", demoProp)] := by
  have h : mkAirfoil "sym" { al0 := some 0, cla := some 6, clMax := some 1.2, cml0 := some 0, cma := some 0, cd0 := some 0.01, cd1 := some 0, cd2 := some 0.01 } = .ok demoFoil := by
    unfold mkAirfoil
    rw [if_pos (by simp [AirfoilProps.truthy])]
    rfl
  have h0 : (newPlane "rotor" none).props = [] := rfl
  simp only [built, rotorOps, runOps, PlaneOp.run, List.foldl, Plane.propAirfoil, h]
  simp [Plane.addProp, mkProp, demoPropDims, dictSet, dictGet, demoProp, h0]

/-- the aircraft after it was given units -/
noncomputable def rotor : Plane := { built "rotor" none rotorOps with units := some none }

/-- the moment of the example propeller in axial flow -/
theorem demo_moment {ι : Type} {M : PropM ι} (hg : M.geom = demoProp) (hc : M.cg = 0) {n : ℝ} {c : Coefs} {o : PropOut} {rho V : ℝ}
    (h : forcesOf M ⟨rho, V, ⟨-1, 0, 0⟩⟩ n c = .ok o) : o.M.x = rho * (n * n) * 32 * c.Cl * -1 := by
  have hd : M.d = 2 := by unfold PropM.d; rw [hg]; rfl
  have hrot : M.rot = 1 := by unfold PropM.rot; rw [hg]; simp [PropGeom.rot, demoProp]
  have hp : M.geom.position = ⟨-1, 0, 0⟩ := by rw [hg]; rfl
  unfold forcesOf at h
  simp only [demo_angle hg, if_true, bind, Except.bind, pure, Except.pure, Except.ok.injEq] at h
  rw [← h]
  simp only [hd, hrot, hp, hc, demo_fwd hg]
  norm_num

/-- C117: a `MachUp` object can be constructed for the aircraft, and its first `solve` gives a rolling moment -/
theorem rotor_solve : ∃ (mem : String → ℕ → ℕ → Option ℝ) (o : Analyser), openMachUp (fun _ _ => 0) mem rotor = .ok o ∧
    ∀ bad, ∃ T w', muSolve (some [("J", .num 0.5)]) (o.fresh rotor (fun _ _ => 1) 1 bad (some { Vmag := some 10, rho := some 1 }) none) =
      (.ok T, w') ∧ T.MX ≠ 0 := by
  obtain ⟨M, hM, -, hd, -⟩ := demo_ok (ι := Fin (sectionsOf none)) (fun _ _ => 0) 0 none none
  have hg : M.geom = demoProp := (mkPropM_ok hM).2.2.1
  obtain ⟨mem, hr⟩ := demo_run hM 10 1 (J := 0.5) (by norm_num) (by norm_num) (fun _ => 1) _ 0 [("J", .num 0.5)]
    (fun s => set_J M 10 s (has_singleton _ _) (by norm_num) (by norm_num)) 15
  obtain ⟨o, s1, r1, n1, -⟩ := hr (fun _ _ => 1) 0
  have hw : rotor.wings = [] := rfl
  have hps : rotor.props = [("prop", demoProp)] := rotor_props
  have hcg : rotor.cg = 0 := rfl
  have hMcg : M.cg = 0 := (mkPropM_ok hM).2.2.2.1
  have hMx : o.M.x ≠ 0 := by
    have r2 := r1
    rw [runProp_eq M (demo_flow 10 1), bind_of_ok (set_J M 10 _ (has_singleton _ _) (by norm_num) (by norm_num))] at r2
    obtain ⟨c, c1, c2⟩ := calcForces_ok r2
    have c3 : findCoefs M (fun _ _ => 1) 1 0.5 _ = (.ok c, s1) := c1
    have h1 := demo_moment hg hMcg c2
    have h2 := (findCoefs_integrals c3).2.1
    have h3 := (forcesOf_out c2).1
    unfold overBlade at h2
    rw [h1, h2, ← h3, n1, hd]
    have := Real.pi_pos
    norm_num
  have l1 : localPS [("J", .num 0.5)] "prop" = .ok [("J", .num 0.5)] := by
    unfold localPS
    rw [if_neg (by simp)]
    simp [dictGet]
  obtain ⟨⟨rL, rD, rS⟩, hrot⟩ := demo_rotate (0 + o.F)
  refine ⟨fun _ => mem, ⟨none, some [⟨"prop", M, { mem }, none⟩]⟩, ?_, fun bad => ?_⟩
  · unfold openMachUp mkWingPart
    rw [if_pos hw]
    simp only [pure, Except.pure, bind, Except.bind]
    rw [if_neg (by rw [hps]; simp)]
    unfold openProps
    rw [hps, hcg]
    have hu : rotor.getUnits = .ok none := rfl
    have hM' : mkPropM (fun _ _ => 0) demoProp 0 none (pointsOf none) = .ok M := hM
    simp only [List.map_cons, List.map_nil, List.foldlM_cons, List.foldlM_nil, hu, bind, Except.bind, pure, Except.pure]
    rw [hM']
    rfl
  · have hslot : (⟨"prop", M, { mem }, none⟩ : PropSlot (Fin (sectionsOf none))).withCg 0 = ⟨"prop", M, { mem }, none⟩ := by
      unfold PropSlot.withCg
      rw [← hMcg]
    set w0 : World (Analyser.backend ⟨none, some [⟨"prop", M, { mem }, none⟩]⟩ rotor (fun _ _ => 1) 1 bad) :=
      Analyser.fresh ⟨none, some [⟨"prop", M, { mem }, none⟩]⟩ rotor (fun _ _ => 1) 1 bad (some { Vmag := some 10, rho := some 1 }) none with hw0
    have hl : propsLoop (fun _ _ => 1) 1 (some { Vmag := some 10, rho := some 1 }) [("J", .num 0.5)] [⟨"prop", M, { mem }, none⟩] {} =
        (.ok ({ F := 0 + o.F, M := 0 + o.M, last := some (o.T, o.l) }, [o]), [⟨"prop", M, s1, some o⟩]) := by
      have r1' : runProp (fun _ _ => 1) 1 M (some { Vmag := some 10, rho := some 1 }) [("J", .num 0.5)] { mem } = (.ok o, s1) := r1
      simp only [propsLoop, l1, r1']
    have hf : propsForces (fun _ _ => 1) 1 (some { Vmag := some 10, rho := some 1 }) [("J", .num 0.5)] [⟨"prop", M, { mem }, none⟩] =
        (.ok (⟨⟨rL, rD, rS, (0 + o.F).x, (0 + o.F).y, (0 + o.F).z, (0 + o.M).x, (0 + o.M).y, (0 + o.M).z⟩, o.T, o.l⟩, [o]),
          [⟨"prop", M, s1, some o⟩]) := by
      unfold propsForces
      simp only [hl, Option.getD_none, freestream_zero, hrot]
    have hps2 : propsSolve (fun _ _ => 1) 1 none (some { Vmag := some 10, rho := some 1 }) [("J", .num 0.5)] [⟨"prop", M, { mem }, none⟩] =
        (.ok (⟨⟨rL, rD, rS, (0 + o.F).x, (0 + o.F).y, (0 + o.F).z, (0 + o.M).x, (0 + o.M).y, (0 + o.M).z⟩, o.T, o.l⟩, none),
          [⟨"prop", M, s1, some o⟩]) := by
      unfold propsSolve
      rw [bind_of_ok hf]
      rfl
    have hB : (Analyser.backend ⟨none, some [⟨"prop", M, { mem }, none⟩]⟩ rotor (fun _ _ => 1) 1 bad).propSolve
        { Vmag := some 10, rho := some 1 } (some [("J", .num 0.5)]) w0.st =
        (.ok (⟨⟨rL, rD, rS, (0 + o.F).x, (0 + o.F).y, (0 + o.F).z, (0 + o.M).x, (0 + o.M).y, (0 + o.M).z⟩, o.T, o.l⟩, none),
          (w0.st.1, [⟨"prop", M, s1, some o⟩])) := by
      show (match propsSolve (fun _ _ => 1) 1 (if !rotor.wings.isEmpty then pointsOf none else none) _ [("J", .num 0.5)]
        ([(⟨"prop", M, { mem }, none⟩ : PropSlot (Fin (sectionsOf none)))].map (·.withCg rotor.cg)) with
        | (r, sls) => (r, (w0.st.1, sls))) = _
      rw [hw, hcg, List.map_cons, hslot]
      exact congrArg (fun x => (x.1, (w0.st.1, x.2))) hps2
    have e1 : ∃ w1, solveProps (some [("J", .num 0.5)]) { Vmag := some 10, rho := some 1 } w0 =
        (.ok (some ⟨⟨rL, rD, rS, (0 + o.F).x, (0 + o.F).y, (0 + o.F).z, (0 + o.M).x, (0 + o.M).y, (0 + o.M).z⟩, o.T, o.l⟩), w1) := by
      unfold solveProps
      rw [if_pos (show (Analyser.backend ⟨none, some [⟨"prop", M, { mem }, none⟩]⟩ rotor (fun _ _ => 1) 1 bad).hasProps = true from by
        show (!rotor.props.isEmpty) = true; rw [hps]; rfl)]
      rw [bind_of_ok (show onSolver _ w0 = _ by unfold onSolver; rw [hB])]
      exact ⟨_, rfl⟩
    obtain ⟨w1, e1⟩ := e1
    have e2 : solveWings w1 = (.ok none, w1) := by
      unfold solveWings
      rw [if_neg (show ¬ (Analyser.backend ⟨none, some [⟨"prop", M, { mem }, none⟩]⟩ rotor (fun _ _ => 1) 1 bad).hasWings = true from by
        show ¬ (!rotor.wings.isEmpty) = true; rw [hw]; simp)]
      rfl
    refine ⟨totalOf (some ⟨⟨rL, rD, rS, (0 + o.F).x, (0 + o.F).y, (0 + o.F).z, (0 + o.M).x, (0 + o.M).y, (0 + o.M).z⟩, o.T, o.l⟩)
      (none : Option (Sol (Fin (sectionsOf none)))), ?_⟩
    unfold muSolve
    rw [get_bind, if_pos (show aeroGiven w0 = true from rfl)]
    unfold solveParts
    rw [bind_def, bind_of_ok (show getAero id w0 = (.ok { Vmag := some 10, rho := some 1 }, w0) from rfl), bind_of_ok e1, bind_of_ok e2]
    refine ⟨_, rfl, ?_⟩
    simpa [totalOf, Loads.add, Loads.zero] using hMx

/-- C117 for one propeller: a run of the example propeller with a torque -/
example : ∃ (M : PropM ℕ) (mem : ℕ → ℕ → Option ℝ) (o : PropOut) (st' : PropSt), mkPropM (fun _ _ => 0) demoProp 0 none none = .ok M ∧
    runProp (fun _ _ => 1) 1 M (some { Vmag := some 10, rho := some 1 }) [("J", .num 0.5)] { mem } = (.ok o, st') ∧ o.T ≠ 0 := by
  obtain ⟨M, hM, -, hd, -⟩ := demo_ok (ι := ℕ) (fun _ _ => 0) 0 none none
  obtain ⟨mem, h⟩ := demo_run hM 10 1 (J := 0.5) (by norm_num) (by norm_num) (fun _ => 1) _ 0 _
    (fun s => set_J M 10 s (has_singleton _ _) (by norm_num) (by norm_num)) 15
  obtain ⟨o, st', r1, n1, -, C1, T1, -⟩ := h (fun _ _ => 1) 0
  refine ⟨M, mem, o, st', hM, r1, ?_⟩
  rw [T1, C1]
  unfold overBlade
  rw [hd]
  have := Real.pi_pos
  positivity

end Verif
