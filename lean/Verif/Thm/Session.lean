import Verif.Model.Session
import Verif.Thm.MUFull
import Verif.Thm.MUInit
import Verif.Thm.PropCalls
import Verif.Thm.PlanePlaced

/-!
# Changes made to the aircraft after a `MachUp` object was constructed (C100)
-/

namespace Verif
open V3 Act

/-- `op` adds a wing -/
def IsAddWing (op : PlaneOp) : Prop := ∃ name parent location side d, op = .addWing name parent location side d
/-- `op` adds a propeller -/
def IsAddProp (op : PlaneOp) : Prop := ∃ name, AddsProp name op
/-- `op` moves the CG -/
def IsCg (op : PlaneOp) : Prop := ∃ x y z, op = .cgLocation x y z

theorem isEmpty_run (p : Plane) (op : PlaneOp) :
    (p.wings ≠ [] ∨ ¬ IsAddWing op → (op.run p).wings.isEmpty = p.wings.isEmpty) ∧
    (p.props ≠ [] ∨ ¬ IsAddProp op → (op.run p).props.isEmpty = p.props.isEmpty) ∧
    (¬ IsCg op → (op.run p).cg = p.cg) := by
  have hne : ∀ {α : Type} (l : List (String × α)) k v, (dictSet l k v).isEmpty = false := fun l k v => by
    rw [List.isEmpty_eq_false_iff]; exact dictSet_ne_nil _ _ _
  cases op with
  | addWing name parent location side d =>
    have hA : IsAddWing (.addWing name parent location side d) := ⟨_, _, _, _, _, rfl⟩
    simp only [PlaneOp.run, addWing_eq]
    cases mkWing name side d with
    | error e => exact ⟨fun _ => rfl, fun _ => rfl, fun _ => rfl⟩
    | ok w =>
      simp only
      cases targetOf (dictSet p.wings name p.heap.length) parent <;>
      · refine ⟨fun h => ?_, fun _ => rfl, fun _ => rfl⟩
        rcases h with h | h
        · simp only [hne]; exact (List.isEmpty_eq_false_iff.2 h).symm
        · exact absurd hA h
  | airfoil i n e props =>
    simp only [PlaneOp.run, Plane.wingAirfoil]
    cases mkAirfoil n props <;> exact ⟨fun _ => rfl, fun _ => rfl, fun _ => rfl⟩
  | controlSurface i props =>
    simp only [PlaneOp.run, Plane.wingCtrl]
    cases mkCtrlSurf props <;> exact ⟨fun _ => rfl, fun _ => rfl, fun _ => rfl⟩
  | addProp n d =>
    refine ⟨fun _ => rfl, fun h => ?_, fun _ => rfl⟩
    rcases h with h | h
    · simp only [PlaneOp.run, Plane.addProp, hne]; exact (List.isEmpty_eq_false_iff.2 h).symm
    · exact absurd ⟨n, d, rfl⟩ h
  | propAirfoil n af props =>
    simp only [PlaneOp.run, Plane.propAirfoil]
    cases mkAirfoil af props with
    | error e => exact ⟨fun _ => rfl, fun _ => rfl, fun _ => rfl⟩
    | ok a =>
      simp only
      cases hq : dictGet p.props n with
      | none => exact ⟨fun _ => rfl, fun _ => rfl, fun _ => rfl⟩
      | some q =>
        refine ⟨fun _ => rfl, fun _ => ?_, fun _ => rfl⟩
        simp only [hne]
        cases hl : p.props with
        | nil => rw [hl] at hq; cases hq
        | cons a t => rfl
  | cgLocation x y z => exact ⟨fun _ => rfl, fun _ => rfl, fun h => absurd ⟨x, y, z, rfl⟩ h⟩
  | setRefLengths a b => exact ⟨fun _ => rfl, fun _ => rfl, fun _ => rfl⟩

theorem isEmpty_runOps (ops : List PlaneOp) : ∀ p : Plane,
    (p.wings ≠ [] ∨ (∀ op ∈ ops, ¬ IsAddWing op) → (runOps p ops).wings.isEmpty = p.wings.isEmpty) ∧
    (p.props ≠ [] ∨ (∀ op ∈ ops, ¬ IsAddProp op) → (runOps p ops).props.isEmpty = p.props.isEmpty) ∧
    ((∀ op ∈ ops, ¬ IsCg op) → (runOps p ops).cg = p.cg) := by
  induction ops with
  | nil => intro p; exact ⟨fun _ => rfl, fun _ => rfl, fun _ => rfl⟩
  | cons op t ih =>
    intro p
    obtain ⟨i1, i2, i3⟩ := ih (op.run p)
    obtain ⟨r1, r2, r3⟩ := isEmpty_run p op
    have hne : ∀ {α : Type} (l l' : List α), l'.isEmpty = l.isEmpty → l ≠ [] → l' ≠ [] := by
      intro α l l' h h0
      rw [← List.isEmpty_eq_false_iff] at h0 ⊢
      rw [h, h0]
    refine ⟨fun h => ?_, fun h => ?_, fun h => ?_⟩
    · have k := r1 (h.imp id fun h => h op List.mem_cons_self)
      rw [show runOps p (op :: t) = runOps (op.run p) t from rfl, i1 ?_, k]
      exact h.imp (hne _ _ k) fun h o ho => h o (List.mem_cons_of_mem _ ho)
    · have k := r2 (h.imp id fun h => h op List.mem_cons_self)
      rw [show runOps p (op :: t) = runOps (op.run p) t from rfl, i2 ?_, k]
      exact h.imp (hne _ _ k) fun h o ho => h o (List.mem_cons_of_mem _ ho)
    · rw [show runOps p (op :: t) = runOps (op.run p) t from rfl, i3 fun o ho => h o (List.mem_cons_of_mem _ ho),
        r3 (h op List.mem_cons_self)]

theorem backend_congr (o : Analyser) {p p' : Plane} (h1 : p'.wings.isEmpty = p.wings.isEmpty)
    (h2 : p'.props.isEmpty = p.props.isEmpty) (h3 : p'.cg = p.cg) (simps : List ℝ → List ℝ → ℝ) (fuel : ℕ)
    (bad : Act (LLState (Fin (sectionsOf o.wing)) × List (PropSlot (Fin (sectionsOf o.wing)))) (Option Loads)) :
    o.backend p' simps fuel bad = o.backend p simps fuel bad := by
  unfold Analyser.backend
  rw [h1, h2, h3]

section
variable (table : String → ℝ → ℝ) (mem : String → ℕ → ℕ → Option ℝ) (simps : List ℝ → List ℝ → ℝ) (fuel : ℕ)

/-- **C100, the part that holds.** Let `o` be a `MachUp` object constructed for the aircraft `p`.  Further `airfoil`,
`control_surface` and `set_reference_lengths` calls, further wings if there were wings, and further propellers if there were
propellers, have no effect on any analysis with `o`. -/
theorem C100_kept_partial (o : Analyser) (p : Plane) (ops : List PlaneOp)
    (hw : p.wings ≠ [] ∨ ∀ op ∈ ops, ¬ IsAddWing op) (hp : p.props ≠ [] ∨ ∀ op ∈ ops, ¬ IsAddProp op)
    (hc : ∀ op ∈ ops, ¬ IsCg op)
    (bad : Act (LLState (Fin (sectionsOf o.wing)) × List (PropSlot (Fin (sectionsOf o.wing)))) (Option Loads)) :
    o.backend (runOps p ops) simps fuel bad = o.backend p simps fuel bad ∧
    ∀ (ps : Option PropDict) (aero : Option (AeroDict (Fin (sectionsOf o.wing)))) (ctrl : Option CtrlDict),
      (muSolve ps (o.fresh (runOps p ops) simps fuel bad aero ctrl)).1 = (muSolve ps (o.fresh p simps fuel bad aero ctrl)).1 := by
  obtain ⟨h1, h2, h3⟩ := isEmpty_runOps ops p
  have hb : o.backend (runOps p ops) simps fuel bad = o.backend p simps fuel bad :=
    backend_congr o (h1 hw) (h2 hp) (h3 hc) simps fuel bad
  refine ⟨hb, fun ps aero ctrl => ?_⟩
  have key : ∀ p' : Plane, p'.wings.isEmpty = p.wings.isEmpty → p'.props.isEmpty = p.props.isEmpty → p'.cg = p.cg →
      (muSolve (B := o.backend p' simps fuel bad) ps (o.fresh p' simps fuel bad aero ctrl)).1 =
      (muSolve (B := o.backend p simps fuel bad) ps (o.fresh p simps fuel bad aero ctrl)).1 := by
    intro p' k1 k2 k3
    unfold Analyser.fresh Analyser.backend
    rw [k1, k2, k3]
  exact key _ (h1 hw) (h2 hp) (h3 hc)

/-- what the constructor stored -/
theorem openMachUp_ok {p : Plane} {o : Analyser} (h : openMachUp table mem p = .ok o) :
    mkWingPart p = .ok o.wing ∧ (o.slots.isSome = true ↔ p.props ≠ []) := by
  unfold openMachUp at h
  cases hw : mkWingPart p with
  | error e => rw [hw] at h; cases h
  | ok w =>
    rw [hw] at h
    change (if p.props = [] then _ else _) = _ at h
    by_cases hp : p.props = []
    · rw [if_pos hp] at h
      cases h
      exact ⟨rfl, by simp [hp]⟩
    · rw [if_neg hp] at h
      cases hs : openProps table mem p (pointsOf w) with
      | error e => rw [hs] at h; cases h
      | ok s =>
        rw [hs] at h
        cases h
        exact ⟨rfl, by simp [hp]⟩

theorem wing_isSome {p : Plane} {w : Option WingPart} (h : mkWingPart p = .ok w) : w.isSome = true ↔ p.wings ≠ [] := by
  unfold mkWingPart at h
  by_cases hp : p.wings = []
  · rw [if_pos hp] at h; cases h; simp [hp]
  · rw [if_neg hp] at h
    cases hg : mkGrid p true with
    | error e => rw [hg] at h; cases h
    | ok g =>
      rw [hg] at h
      cases hr : refLengths p g.refArea with
      | error e => simp [hr, bind, Except.bind] at h
      | ok r =>
        simp only [bind, Except.bind, hr] at h
        cases h
        simp [hp]

theorem backend_noProp {o : Analyser} (ho : ¬ o.slots.isSome = true) {p : Plane} {simps : List ℝ → List ℝ → ℝ} {fuel : ℕ}
    {bad : Act (LLState (Fin (sectionsOf o.wing)) × List (PropSlot (Fin (sectionsOf o.wing)))) (Option Loads)}
    (d : AeroDict (Fin (sectionsOf o.wing))) (ps : Option PropDict) (st : (o.backend p simps fuel bad).σ) :
    (o.backend p simps fuel bad).propSolve d ps st = (.error .attribute, st) := by
  rcases o with ⟨w, _ | s⟩
  · rfl
  · exact absurd rfl ho

theorem backend_noWing {o : Analyser} (ho : ¬ o.wing.isSome = true) {p : Plane} {simps : List ℝ → List ℝ → ℝ} {fuel : ℕ}
    {bad : Act (LLState (Fin (sectionsOf o.wing)) × List (PropSlot (Fin (sectionsOf o.wing)))) (Option Loads)}
    (d : AeroDict (Fin (sectionsOf o.wing))) (c : Option CtrlDict) (st : (o.backend p simps fuel bad).σ) :
    (o.backend p simps fuel bad).wingSolve d c st = (.error .attribute, st) := by
  rcases o with ⟨_ | w, s⟩
  · rfl
  · exact absurd rfl ho

/-- **C100 fails (1).** A `MachUp` object constructed for an aircraft without propellers is of no use once a propeller has
been added to the aircraft: no `solve` returns a result. -/
theorem C100_added_prop {p p' : Plane} {o : Analyser} (h : openMachUp table mem p = .ok o) (hp : p.props = []) (hp' : p'.props ≠ [])
    (bad : Act (LLState (Fin (sectionsOf o.wing)) × List (PropSlot (Fin (sectionsOf o.wing)))) (Option Loads))
    (ps : Option PropDict) (w w' : World (o.backend p' simps fuel bad)) (T : Loads) : muSolve ps w ≠ (.ok T, w') := by
  intro hs
  obtain ⟨field, st1, prop, wing, k, -⟩ := muSolve_ok hs
  rw [if_pos (show (o.backend p' simps fuel bad).hasProps = true by
    show (!p'.props.isEmpty) = true
    rw [List.isEmpty_eq_false_iff.2 hp']; rfl)] at k
  obtain ⟨r, -, k⟩ := k
  have ho : ¬ o.slots.isSome = true := fun q => (openMachUp_ok table mem h).2.1 q hp
  rw [backend_noProp ho] at k
  cases k

/-- **C100 fails (2).** The same for the first wing of an aircraft that had propellers only. -/
theorem C100_added_wing {p p' : Plane} {o : Analyser} (h : openMachUp table mem p = .ok o) (hp : p.wings = []) (hp' : p'.wings ≠ [])
    (bad : Act (LLState (Fin (sectionsOf o.wing)) × List (PropSlot (Fin (sectionsOf o.wing)))) (Option Loads))
    (ps : Option PropDict) (w w' : World (o.backend p' simps fuel bad)) (T : Loads) : muSolve ps w ≠ (.ok T, w') := by
  intro hs
  obtain ⟨field, st1, prop, wing, -, k, -⟩ := muSolve_ok hs
  rw [if_pos (show (o.backend p' simps fuel bad).hasWings = true by
    show (!p'.wings.isEmpty) = true
    rw [List.isEmpty_eq_false_iff.2 hp']; rfl)] at k
  obtain ⟨r, -, k⟩ := k
  have ho : ¬ o.wing.isSome = true := fun q => (wing_isSome (openMachUp_ok table mem h).1).1 q hp
  rw [backend_noWing ho] at k
  cases k

end

/-- the demonstration wing, opened -/
theorem unit_open (table : String → ℝ → ℝ) (mem : String → ℕ → ℕ → Option ℝ) {g : Grid} (hg : mkGrid unitPlane true = .ok g) :
    openMachUp table mem unitPlane = .ok ⟨some ⟨g, 2, g.refArea / 2⟩, none⟩ := by
  unfold openMachUp
  rw [unit_wingPart hg]
  simp only [bind, Except.bind]
  rw [if_pos (show unitPlane.props = [] from rfl)]
  rfl

/-- a `solve` of an aircraft without propellers -/
theorem muSolve_wingsOnly {ι : Type} [Fintype ι] [DecidableEq ι] {B : Backend ι} (hP : B.hasProps = false) (hW : B.hasWings = true)
    {ps : Option B.π} {w : World B} {d : AeroDict ι} (hd : w.aero = some d) (hg : aeroGiven w = true) :
    (muSolve ps w).1 = (B.wingSolve d w.ctrl w.st).1.map fun R => totalOf none (some R) := by
  unfold muSolve
  rw [get_bind, if_pos hg]
  unfold solveParts
  rw [bind_def, bind_of_ok (show getAero id w = (.ok d, w) by unfold getAero; rw [hd]; rfl),
    bind_of_ok (show solveProps ps d w = (.ok none, w) by unfold solveProps; rw [if_neg (by rw [hP]; simp)]; rfl)]
  rcases hq : B.wingSolve d w.ctrl w.st with ⟨e | R, st'⟩
  · have hw : onSolver (B.wingSolve d w.ctrl) w = (.error e, { w with st := st' }) := by unfold onSolver; rw [hq]
    have h2 : solveWings w = (.error e, { w with st := st' }) := by
      unfold solveWings
      rw [if_pos hW, get_bind, show w.aero.getD {} = d by rw [hd]; rfl]
      exact bind_of_error hw _
    rw [bind_of_error h2]
    rfl
  · have hw : onSolver (B.wingSolve d w.ctrl) w = (.ok R, { w with st := st' }) := by unfold onSolver; rw [hq]
    have h2 : solveWings w = (.ok (some R), { w with st := st' }) := by
      unfold solveWings
      rw [if_pos hW, get_bind, show w.aero.getD {} = d by rw [hd]; rfl]
      exact bind_of_ok hw _
    rw [bind_of_ok h2]
    rfl

/-- the demonstration wing with its CG elsewhere -/
theorem unit_session (simps : List ℝ → List ℝ → ℝ) (fuel : ℕ) (g : Grid) (p : Plane) (hp : p.wings ≠ []) (hq : p.props = [])
    (bad : Act (LLState (Fin (sectionsOf (some (⟨g, 2, g.refArea / 2⟩ : WingPart)))) ×
      List (PropSlot (Fin (sectionsOf (some (⟨g, 2, g.refArea / 2⟩ : WingPart)))))) (Option Loads)) :
    (muSolve none (Analyser.fresh ⟨some ⟨g, 2, g.refArea / 2⟩, none⟩ p simps fuel bad (some (unitAero _)) (some exCtrl))).1 =
      (llSolve (g.geom p.cg) (LLState.init _) "linear" (some (unitAero _)) (some exCtrl)).1.map fun R => totalOf none (some R) := by
  rw [muSolve_wingsOnly (B := Analyser.backend ⟨some ⟨g, 2, g.refArea / 2⟩, none⟩ p simps fuel bad) (d := unitAero _)
    (by show (!p.props.isEmpty) = false; rw [hq]; rfl)
    (by show (!p.wings.isEmpty) = true; rw [List.isEmpty_eq_false_iff.2 hp]; rfl) rfl rfl]
  rfl

/-- **C100** (negation). Moving the CG of the aircraft changes the moments of an existing `MachUp` object; adding a propeller
makes every analysis with it fail. -/
theorem C100_refuted (table : String → ℝ → ℝ) (mem : String → ℕ → ℕ → Option ℝ) (simps : List ℝ → List ℝ → ℝ) (fuel : ℕ) :
    (¬ ∀ (nm : String) (pos : Option V3) (ops : List PlaneOp) (o : Analyser), openMachUp table mem (built nm pos ops) = .ok o →
      ∀ (x y z : Option ℝ) (bad : _) (ps : Option PropDict) (aero : Option (AeroDict (Fin (sectionsOf o.wing)))) (ctrl : Option CtrlDict),
        (muSolve ps (o.fresh (runOps (built nm pos ops) [.cgLocation x y z]) simps fuel bad aero ctrl)).1 =
        (muSolve ps (o.fresh (built nm pos ops) simps fuel bad aero ctrl)).1) ∧
    (¬ ∀ (nm : String) (pos : Option V3) (ops : List PlaneOp) (o : Analyser), openMachUp table mem (built nm pos ops) = .ok o →
      ∀ (name : String) (dims : PropDims) (bad : _) (ps : Option PropDict) (aero : Option (AeroDict (Fin (sectionsOf o.wing))))
        (ctrl : Option CtrlDict),
        (muSolve ps (o.fresh (runOps (built nm pos ops) [.addProp name dims]) simps fuel bad aero ctrl)).1 =
        (muSolve ps (o.fresh (built nm pos ops) simps fuel bad aero ctrl)).1) := by
  obtain ⟨g, hg, hsol⟩ := unit_forces true
  obtain ⟨R, hR, -, hF⟩ := hsol (LLState.init _)
  have hopen := unit_open table mem hg
  have hw : unitPlane.wings ≠ [] := by rw [unit_wings]; simp
  refine ⟨fun hall => ?_, fun hall => ?_⟩
  · have h := hall "unit" none unitOps _ hopen none none (some 1) (fun s => (.ok none, s)) none (some (unitAero _)) (some exCtrl)
    have e1 := unit_session simps fuel g unitPlane hw rfl (fun s => (.ok none, s))
    have e2 := unit_session simps fuel g (runOps unitPlane [.cgLocation none none (some 1)]) hw rfl (fun s => (.ok none, s))
    have h' := (e2.symm.trans h).trans e1
    have hcg := C28_cg_transfer (g.geom unitPlane.cg) (LLState.init _) "linear" (some (unitAero _)) (some exCtrl) ⟨0, 0, 1⟩
      (by rintro d' ⟨⟩; exact ⟨rfl, rfl, rfl⟩)
    have hG : ({ g.geom unitPlane.cg with cg := (g.geom unitPlane.cg).cg + ⟨0, 0, 1⟩ } : LLGeom _) =
        g.geom (runOps unitPlane [.cgLocation none none (some 1)]).cg := by
      unfold Grid.geom
      have : unitPlane.cg + ⟨0, 0, 1⟩ = (runOps unitPlane [.cgLocation none none (some 1)]).cg := by
        simp only [runOps, PlaneOp.run, Plane.cgLocation, List.foldl, unit_cg]
        ext <;> simp [Plane.setCoord]
      rw [← this]
    rw [hG, hR] at hcg
    rw [hR] at h'
    generalize (llSolve (g.geom (runOps unitPlane [.cgLocation none none (some 1)]).cg) _ _ _ _).1 = r at h' hcg
    cases r with
    | error e => exact hcg
    | ok R' =>
      have hM := hcg.2.2.2.2.2.2.2.2.2.2.2.2
      simp only [Except.map, Except.ok.injEq] at h'
      have hy := congrArg Loads.MY h'
      simp only [totalOf, Option.map_none, Option.getD_none, Option.map_some, Option.getD_some, Loads.add, Loads.zero] at hy
      have hm := congrArg V3.y hM
      simp [cross, Loads.M, Loads.F] at hm hy
      linarith
  · have h := hall "unit" none unitOps _ hopen "p" {} (fun s => (.ok none, s)) none (some (unitAero _)) (some exCtrl)
    have e1 := unit_session simps fuel g unitPlane hw rfl (fun s => (.ok none, s))
    have h' := h.trans e1
    rw [hR] at h'
    rcases hm : muSolve none (Analyser.fresh ⟨some ⟨g, 2, g.refArea / 2⟩, none⟩ (runOps unitPlane [.addProp "p" {}]) simps fuel
      (fun s => (.ok none, s)) (some (unitAero _)) (some exCtrl)) with ⟨r, w'⟩
    have hr : r = .ok (totalOf none (some R)) := (congrArg Prod.fst hm).symm.trans h'
    subst hr
    exact C100_added_prop table mem simps fuel hopen rfl (by
      simp only [runOps, PlaneOp.run, Plane.addProp, List.foldl]; exact dictSet_ne_nil _ _ _) _ _ _ _ _ hm

/-! ### A CG moved later counts as if the object had been constructed afterwards -/

theorem solveParts_state {ι : Type} [Fintype ι] [DecidableEq ι] {B : Backend ι} (hP : B.hasProps = true) {ps : Option B.π}
    {w : World B} {st' : B.σ} (hs : ∀ d, B.propSolve d ps st' = B.propSolve d ps w.st) {d : AeroDict ι} (hd : w.aero = some d) :
    solveParts ps { w with st := st' } = solveParts ps w := by
  unfold solveParts
  rw [bind_of_ok (show getAero id w = (.ok d, w) by unfold getAero; rw [hd]; rfl),
    bind_of_ok (show getAero id { w with st := st' } = (.ok d, { w with st := st' }) by unfold getAero; simp only [hd]; rfl)]
  have h2 : solveProps ps d { w with st := st' } = solveProps ps d w := by
    unfold solveProps
    rw [if_pos hP]
    have : onSolver (B.propSolve d ps) { w with st := st' } = onSolver (B.propSolve d ps) w := by
      unfold onSolver
      simp only [hs]
    rw [bind_def, bind_def, this]
  rw [bind_def, bind_def, h2]

theorem muSolve_state {ι : Type} [Fintype ι] [DecidableEq ι] {B : Backend ι} (hP : B.hasProps = true) {ps : Option B.π}
    {w : World B} {st' : B.σ} (hs : ∀ d, B.propSolve d ps st' = B.propSolve d ps w.st) :
    (muSolve ps { w with st := st' }).1 = (muSolve ps w).1 := by
  unfold muSolve
  rw [get_bind, get_bind]
  have hg : aeroGiven { w with st := st' } = aeroGiven w := rfl
  rw [hg]
  by_cases h : aeroGiven w = true
  · rw [if_pos h]
    obtain ⟨d, hd⟩ : ∃ d, w.aero = some d := by
      rcases ha : w.aero with _ | d
      · simp [aeroGiven, ha] at h
      · exact ⟨d, rfl⟩
    rw [bind_def, bind_def, solveParts_state hP hs hd]
  · rw [if_neg h]
    have : withAero defaultAeroDict (solveParts ps) { w with st := st' } = withAero defaultAeroDict (solveParts ps) w := by
      unfold withAero
      have := solveParts_state hP (ps := ps) (w := { w with aero := some defaultAeroDict }) (st' := st') hs rfl
      simp only [this]
    rw [bind_def, bind_def, this]

/-- the propeller model depends on the CG through one entry only -/
theorem mkPropM_cg {ι : Type} (table : String → ℝ → ℝ) (q : PropGeom) (cg cg' : V3) (u : Option String) (pts : Option (ι → V3)) :
    mkPropM table q cg' u pts = (mkPropM table q cg u pts).map fun m => { m with cg := cg' } := by
  unfold mkPropM
  split
  · rfl
  · split
    · rfl
    · cases bladeAf q with
      | error e => rfl
      | ok af =>
        simp only [bind, Except.bind]
        cases bladePitch table q (zetaAt q 0) (zetaAt q 0 * q.diameter * 0.5) (af 0).aL0 with
        | error e => rfl
        | ok _ =>
          simp only
          cases bladeChord table q (zetaAt q 0) with
          | error e => rfl
          | ok _ =>
            simp only
            cases calcMotor q.motor with
            | error e => rfl
            | ok m =>
              simp only
              split <;> rfl

theorem foldlM_image {α β γ : Type} {f : α → γ → Except PyErr α} {g : β → γ → Except PyErr β} (φ : α → β)
    (h : ∀ a c, g (φ a) c = (f a c).map φ) (l : List γ) : ∀ a, l.foldlM g (φ a) = (l.foldlM f a).map φ := by
  induction l with
  | nil => intro a; rfl
  | cons c t ih =>
    intro a
    rw [List.foldlM_cons, List.foldlM_cons, h]
    cases f a c with
    | error e => rfl
    | ok b => exact ih b

/-- `openProps` for another CG -/
theorem openProps_cg {ι : Type} (table : String → ℝ → ℝ) (mem : String → ℕ → ℕ → Option ℝ) (p : Plane) (cg' : V3)
    (pts : Option (ι → V3)) :
    openProps table mem { p with cg := cg' } pts = (openProps table mem p pts).map fun s => s.map (·.withCg cg') := by
  unfold openProps
  simp only
  have h0 := foldlM_image (fun (d : List (String × PropM ι)) => d.map fun kv => (kv.1, ({ kv.2 with cg := cg' } : PropM ι)))
    (f := fun d (q : PropGeom) => do
        let u ← p.getUnits
        let m ← mkPropM table q p.cg u pts
        return dictSet d q.name m)
    (g := fun d q => do
        let u ← ({ p with cg := cg' } : Plane).getUnits
        let m ← mkPropM table q cg' u pts
        return dictSet d q.name m) (fun d q => by
      simp only [show ({ p with cg := cg' } : Plane).getUnits = p.getUnits from rfl]
      cases p.getUnits with
      | error e => rfl
      | ok u =>
        simp only [bind, Except.bind]
        rw [mkPropM_cg table q p.cg cg' u pts]
        cases mkPropM table q p.cg u pts with
        | error e => rfl
        | ok m =>
          simp only [Except.map, pure, Except.pure]
          exact congrArg Except.ok (dictSet_map (fun _ (a : PropM ι) => { a with cg := cg' }) d q.name m).symm) (p.props.map Prod.snd) []
  rw [List.map_nil] at h0
  rw [h0]
  cases ((p.props.map Prod.snd).foldlM (fun d q => do
        let u ← p.getUnits
        let m ← mkPropM table q p.cg u pts
        return dictSet d q.name m) ([] : List (String × PropM ι)) : Except PyErr (List (String × PropM ι))) with
  | error e => rfl
  | ok d =>
    simp only [bind, Except.bind, Except.map, pure, Except.pure, List.map_map]
    rfl

/-- **C100, a CG moved later.** `cg_location` takes effect in a `MachUp` object constructed before exactly as if the object had
been constructed afterwards: the constructor succeeds for the changed aircraft, and the first `solve` of either object gives the
same result. -/
theorem C100_cg_live (table : String → ℝ → ℝ) (mem : String → ℕ → ℕ → Option ℝ) (simps : List ℝ → List ℝ → ℝ) (fuel : ℕ)
    (p : Plane) (o : Analyser) (h : openMachUp table mem p = .ok o) (x y z : Option ℝ) :
    ∃ slots', openMachUp table mem (p.cgLocation x y z) = .ok ⟨o.wing, slots'⟩ ∧
      ∀ (bad : Act (LLState (Fin (sectionsOf o.wing)) × List (PropSlot (Fin (sectionsOf o.wing)))) (Option Loads))
        (ps : Option PropDict) (aero : Option (AeroDict (Fin (sectionsOf o.wing)))) (ctrl : Option CtrlDict),
        (muSolve ps (o.fresh (p.cgLocation x y z) simps fuel bad aero ctrl)).1 =
        (muSolve ps (Analyser.fresh ⟨o.wing, slots'⟩ (p.cgLocation x y z) simps fuel bad aero ctrl)).1 := by
  generalize hp' : p.cgLocation x y z = p'
  have hcg : p' = { p with cg := p'.cg } := by rw [← hp']; rfl
  have hwp : mkWingPart p' = mkWingPart p := by rw [hcg]; exact mkWingPart_congr rfl rfl rfl rfl rfl
  have hprops : p'.props = p.props := by rw [hcg]
  unfold openMachUp at h ⊢
  rw [hwp]
  cases hw : mkWingPart p with
  | error e => rw [hw] at h; cases h
  | ok w =>
    rw [hw] at h
    simp only [bind, Except.bind] at h ⊢
    rw [hprops]
    by_cases hp : p.props = []
    · rw [if_pos hp] at h ⊢
      cases h
      exact ⟨none, rfl, fun _ _ _ _ => rfl⟩
    · rw [if_neg hp] at h ⊢
      cases hs : openProps table mem p (pointsOf w) with
      | error e => rw [hs] at h; cases h
      | ok s =>
        rw [hs] at h
        cases h
        refine ⟨some (s.map (·.withCg p'.cg)), ?_, fun bad ps aero ctrl => ?_⟩
        · rw [hcg, openProps_cg, hs]
          rfl
        · have hP : (Analyser.backend ⟨w, some s⟩ p' simps fuel bad).hasProps = true := by
            show (!p'.props.isEmpty) = true
            rw [hprops, List.isEmpty_eq_false_iff.2 hp]; rfl
          refine (muSolve_state (B := Analyser.backend ⟨w, some s⟩ p' simps fuel bad) hP (ps := ps)
            (w := Analyser.fresh ⟨w, some s⟩ p' simps fuel bad aero ctrl)
            (st' := (LLState.init _, s.map (·.withCg p'.cg))) fun d => ?_).symm.trans rfl
          have : (s.map (·.withCg p'.cg)).map (·.withCg p'.cg) = s.map (·.withCg p'.cg) := by
            rw [List.map_map]; rfl
          show (match propsSolve simps fuel (if !p'.wings.isEmpty then pointsOf w else none) (some d) (ps.getD [])
            ((s.map (·.withCg p'.cg)).map (·.withCg p'.cg)) with
            | (r, sls) => (r, ((LLState.init _, sls) : _ × _))) = _
          rw [this]
          rfl

/-- The demonstration wing, opened, then given a second wing, another airfoil and reference lengths: a `solve` with the object
opened before still returns what it returned. -/
example (table : String → ℝ → ℝ) (mem : String → ℕ → ℕ → Option ℝ) (simps : List ℝ → List ℝ → ℝ) (fuel : ℕ) :
    ∃ o g R, openMachUp table mem unitPlane = .ok o ∧ o = ⟨some ⟨g, 2, g.refArea / 2⟩, none⟩ ∧
      (muSolve none (o.fresh unitPlane simps fuel (fun s => (.ok none, s)) (some (unitAero _)) (some exCtrl))).1 = .ok R ∧ R.FX < 0 ∧
      (muSolve none (o.fresh (runOps unitPlane [.addWing "tail" none "tip" "both" {}, .airfoil 0 "flat" "both" {},
        .setRefLengths (some 3) none]) simps fuel (fun s => (.ok none, s)) (some (unitAero _)) (some exCtrl))).1 = .ok R := by
  obtain ⟨g, hg, hsol⟩ := unit_forces true
  obtain ⟨R, hR, -, hF⟩ := hsol (LLState.init _)
  have hw : unitPlane.wings ≠ [] := by rw [unit_wings]; simp
  have e1 := unit_session simps fuel g unitPlane hw rfl (fun s => (.ok none, s))
  rw [hR] at e1
  refine ⟨_, g, totalOf none (some R), unit_open table mem hg, rfl, e1, ?_, ?_⟩
  · simp only [totalOf, Option.map_none, Option.getD_none, Option.map_some, Option.getD_some, Loads.add, Loads.zero]
    linarith
  · refine ((C100_kept_partial simps fuel ⟨some ⟨g, 2, g.refArea / 2⟩, none⟩ unitPlane _ (.inl hw) (.inr ?_) ?_
      (fun s => (.ok none, s))).2 none (some (unitAero _)) (some exCtrl)).trans e1
    · rintro op hop ⟨n, d, rfl⟩; simp at hop
    · rintro op hop ⟨x, y, z, rfl⟩; simp at hop

end Verif
