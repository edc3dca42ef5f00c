import Verif.Lemmas.Steps
import Verif.Model.StlCall
import Verif.Thm.Session
import Verif.Thm.Stl
import Verif.Thm.PlaneAfter
import Verif.Lemmas.PlaneOrder

/-!
# `create_stl` draws the aircraft, whatever was analysed before (C111)
-/

namespace Verif
open V3 Act

/-! ### The propellers of an aircraft and of a `MachUp` object constructed for it -/

/-- every propeller is stored under its name, and no name occurs twice -/
def PropsNamed (p : Plane) : Prop := (∀ kv ∈ p.props, kv.2.name = kv.1) ∧ (p.props.map (·.1)).Nodup

theorem propsNamed_run {p : Plane} (h : PropsNamed p) (op : PlaneOp) : PropsNamed (op.run p) := by
  cases op with
  | addWing name parent location side d =>
    simp only [PlaneOp.run, addWing_eq]
    cases mkWing name side d with
    | error e => exact h
    | ok w =>
      simp only
      cases targetOf (dictSet p.wings name p.heap.length) parent <;> exact h
  | airfoil i n e props =>
    simp only [PlaneOp.run, Plane.wingAirfoil]
    cases mkAirfoil n props <;> exact h
  | controlSurface i props =>
    simp only [PlaneOp.run, Plane.wingCtrl]
    cases mkCtrlSurf props <;> exact h
  | addProp n d =>
    refine ⟨fun kv hkv => ?_, nodup_dictSet _ _ _ h.2⟩
    rcases mem_dictSet hkv with hkv | rfl
    · exact h.1 kv hkv
    · rfl
  | propAirfoil n af props =>
    simp only [PlaneOp.run, Plane.propAirfoil]
    cases mkAirfoil af props with
    | error e => exact h
    | ok a =>
      simp only
      cases hq : dictGet p.props n with
      | none => exact h
      | some q =>
        refine ⟨fun kv hkv => ?_, nodup_dictSet _ _ _ h.2⟩
        rcases mem_dictSet hkv with hkv | rfl
        · exact h.1 kv hkv
        · exact (h.1 _ (dictGet_mem hq) : q.name = n)
  | cgLocation x y z => exact h
  | setRefLengths a b => exact h

theorem propsNamed_built (nm : String) (pos : Option V3) (ops : List PlaneOp) : PropsNamed (built nm pos ops) := by
  unfold built
  have : ∀ p : Plane, PropsNamed p → PropsNamed (runOps p ops) := by
    induction ops with
    | nil => intro p h; exact h
    | cons op t ih => intro p h; exact ih (op.run p) (propsNamed_run h op)
  exact this _ ⟨by simp [newPlane], by simp [newPlane]⟩

theorem dictSet_append {α : Type*} (d : List (String × α)) (k : String) (v : α) (h : k ∉ d.map (·.1)) :
    dictSet d k v = d ++ [(k, v)] := by
  induction d with
  | nil => rfl
  | cons a t ih =>
    obtain ⟨k', v'⟩ := a
    simp only [List.map_cons, List.mem_cons, not_or] at h
    simp only [dictSet]
    rw [if_neg fun e => h.1 e.symm, ih h.2]
    rfl

theorem fold_slots {ι : Type} (mk : PropGeom → Except PyErr (PropM ι)) : ∀ (l : List (String × PropGeom)) (acc d : List (String × PropM ι)),
    (∀ kv ∈ l, kv.2.name = kv.1) → (acc.map (·.1) ++ l.map (·.1)).Nodup →
    (l.map Prod.snd).foldlM (fun d q => do
      let m ← mk q
      return dictSet d q.name m) acc = .ok d →
    ∃ ms, d = acc ++ ms ∧ List.Forall₂ (fun kv m => m.1 = kv.1 ∧ mk kv.2 = .ok m.2) l ms := by
  intro l
  induction l with
  | nil =>
    intro acc d _ _ h
    simp only [List.map_nil, List.foldlM_nil] at h
    cases h
    exact ⟨[], by simp, .nil⟩
  | cons kv t ih =>
    intro acc d hn hd h
    simp only [List.map_cons, List.foldlM_cons] at h
    cases hm : mk kv.2 with
    | error e => rw [hm] at h; cases h
    | ok m =>
      rw [hm] at h
      change (t.map Prod.snd).foldlM _ (dictSet acc kv.2.name m) = _ at h
      have e1 : kv.2.name = kv.1 := hn kv (by simp)
      have e2 : dictSet acc kv.2.name m = acc ++ [(kv.1, m)] := by
        rw [e1]
        apply dictSet_append
        intro hc
        rw [List.nodup_append] at hd
        exact hd.2.2 _ hc _ (by simp) rfl
      rw [e2] at h
      obtain ⟨ms, rfl, hf⟩ := ih _ d (fun kv hkv => hn kv (by simp [hkv])) (by simpa using hd) h
      exact ⟨(kv.1, m) :: ms, by simp, .cons ⟨rfl, hm⟩ hf⟩

/-- the slots of a freshly constructed object: the propellers of the aircraft in order -/
theorem openProps_slots {ι : Type} {table : String → ℝ → ℝ} {mem : String → ℕ → ℕ → Option ℝ} {p : Plane} (hp : PropsNamed p)
    {pts : Option (ι → V3)} {sls : List (PropSlot ι)} (h : openProps table mem p pts = .ok sls) :
    List.Forall₂ (fun kv sl => sl.name = kv.1 ∧ ∃ u, mkPropM table kv.2 p.cg u pts = .ok sl.model) p.props sls := by
  unfold openProps at h
  cases hu : p.getUnits with
  | error e =>
    rcases hl : p.props with _ | ⟨kv, t⟩
    · rw [hl] at h
      change Except.ok _ = _ at h
      cases h
      exact .nil
    · rw [hl, hu] at h
      cases h
  | ok u =>
    rw [hu] at h
    rcases hf : (p.props.map Prod.snd).foldlM (fun d q => do
      let m ← mkPropM table q p.cg u pts
      return dictSet d q.name m) ([] : List (String × PropM ι)) with e | d
    · change ((p.props.map Prod.snd).foldlM (fun d q => do
        let m ← mkPropM table q p.cg u pts
        return dictSet d q.name m) ([] : List (String × PropM ι)) >>= _) = _ at h
      rw [hf] at h
      cases h
    · change ((p.props.map Prod.snd).foldlM (fun d q => do
        let m ← mkPropM table q p.cg u pts
        return dictSet d q.name m) ([] : List (String × PropM ι)) >>= _) = _ at h
      rw [hf] at h
      cases h
      obtain ⟨ms, rfl, hms⟩ := fold_slots (fun q => mkPropM table q p.cg u pts) p.props [] d hp.1 (by simpa using hp.2) hf
      rw [List.forall₂_map_right_iff]
      exact hms.imp fun kv m hm => ⟨hm.1, u, hm.2⟩

/-! ### Analyses do not change what is drawn -/

/-- a propeller model with the CG left out -/
def PropM.sansCg {ι : Type} (M : PropM ι) : PropM ι := { M with cg := 0 }

theorem propsLoop_models {ι : Type} (simps : List ℝ → List ℝ → ℝ) (fuel : ℕ) (aero : Option (AeroDict ι)) (ps : PropDict) :
    ∀ (sls : List (PropSlot ι)) (acc : PropAcc),
      (propsLoop simps fuel aero ps sls acc).2.map PropSlot.model = sls.map PropSlot.model := by
  intro sls
  induction sls with
  | nil => intro acc; rfl
  | cons sl rest ih =>
    intro acc
    unfold propsLoop
    cases localPS ps sl.name with
    | error e => rfl
    | ok s =>
      simp only
      rcases runProp simps fuel sl.model aero s sl.st with ⟨e | o, st⟩
      · rfl
      · simp only
        have := ih { F := acc.F + o.F, M := acc.M + o.M, last := some (o.T, o.l) }
        rcases hq : propsLoop simps fuel aero ps rest { F := acc.F + o.F, M := acc.M + o.M, last := some (o.T, o.l) } with ⟨e | ⟨a, b⟩, r⟩ <;>
        · rw [hq] at this
          simp only [List.map_cons, List.cons.injEq, true_and]
          exact this

theorem propsSolve_models {ι : Type} (simps : List ℝ → List ℝ → ℝ) (fuel : ℕ) (pts : Option (ι → V3)) (aero : Option (AeroDict ι))
    (ps : PropDict) (sls : List (PropSlot ι)) :
    (propsSolve simps fuel pts aero ps sls).2.map PropSlot.model = sls.map PropSlot.model := by
  have hF : (propsForces simps fuel aero ps sls).2.map PropSlot.model = sls.map PropSlot.model := by
    have := propsLoop_models simps fuel aero ps sls {}
    unfold propsForces
    rcases hq : propsLoop simps fuel aero ps sls {} with ⟨e | ⟨a, b⟩, r⟩ <;> rw [hq] at this
    · exact this
    · simp only
      cases aero with
      | none => exact this
      | some d =>
        simp only
        cases freestream 1 (d.alpha.getD 0) (d.beta.getD 0) with
        | none => exact this
        | some u =>
          simp only
          split <;> exact this
  unfold propsSolve
  rw [bind_def]
  rcases hq : propsForces simps fuel aero ps sls with ⟨e | ⟨tot, outs⟩, s1⟩
  · rw [hq] at hF; exact hF
  rw [hq] at hF
  simp only
  cases pts with
  | none => exact hF
  | some pt =>
    simp only
    rw [bind_def]
    unfold Act.lift
    rcases propFlow aero with e | fl
    · exact hF
    · simp only
      rw [get_bind]
      split_ifs <;> exact hF

theorem keeps_obs {ι : Type} [Fintype ι] [DecidableEq ι] {B : Backend ι} {γ : Type} (obs : B.σ → γ)
    (h1 : ∀ d ps st, obs (B.propSolve d ps st).2 = obs st) (h2 : ∀ d c st, obs (B.wingSolve d c st).2 = obs st) (ps : Option B.π) :
    Keeps (fun w : World B => obs w.st) (muSolve ps : Act (World B) _) := by
  have k1 : ∀ d, Keeps (fun w : World B => obs w.st) (solveProps ps d : Act (World B) _) := by
    intro d
    unfold solveProps
    refine Keeps.ite ?_ (Keeps.pure _)
    refine Keeps.bind (fun w => h1 d ps w.st) fun r => ?_
    rcases r with ⟨r, _ | f⟩
    · exact Keeps.bind (Keeps.ret _) fun _ => Keeps.pure _
    · exact Keeps.bind (keeps_setAero fun _ _ _ => rfl) fun _ => Keeps.pure _
  have k2 : Keeps (fun w : World B => obs w.st) (solveWings : Act (World B) _) := by
    unfold solveWings
    refine Keeps.ite ?_ (Keeps.pure _)
    exact Keeps.bind Keeps.get fun w => Keeps.bind (fun w' => h2 _ _ w'.st) fun _ => Keeps.pure _
  have k3 : Keeps (fun w : World B => obs w.st) (solveParts ps : Act (World B) _) := by
    unfold solveParts
    refine Keeps.bind (keeps_getAero _) fun d => Keeps.bind (k1 d) fun r => Keeps.bind k2 fun r2 => ?_
    exact Keeps.bind (fun w => rfl) fun _ => Keeps.pure _
  unfold muSolve
  refine Keeps.bind Keeps.get fun w => Keeps.ite ?_ ?_
  · exact Keeps.bind k3 fun _ => Keeps.pure _
  · exact Keeps.bind (keeps_withAero k3 fun w w' h => h.symm) fun _ => Keeps.pure _

section
variable {o : Analyser} {p : Plane} {simps : List ℝ → List ℝ → ℝ} {fuel : ℕ}
  {bad : Act (LLState (Fin (sectionsOf o.wing)) × List (PropSlot (Fin (sectionsOf o.wing)))) (Option Loads)}

/-- the propeller models of a solver state, up to the CG -/
def drawnModels {ι : Type} (st : LLState ι × List (PropSlot ι)) : List (PropM ι) := (propModels st.2).map PropM.sansCg

theorem models_propSolve (d : AeroDict (Fin (sectionsOf o.wing))) (ps : Option PropDict)
    (st : LLState (Fin (sectionsOf o.wing)) × List (PropSlot (Fin (sectionsOf o.wing)))) :
    drawnModels ((o.backend p simps fuel bad).propSolve d ps st).2 = drawnModels st := by
  have e : (o.backend p simps fuel bad).propSolve d ps st =
      if o.slots.isSome then
        ((propsSolve simps fuel (if (!p.wings.isEmpty) then pointsOf o.wing else none) (some d) (ps.getD [])
          (st.2.map (·.withCg p.cg))).1,
         (st.1, (propsSolve simps fuel (if (!p.wings.isEmpty) then pointsOf o.wing else none) (some d) (ps.getD [])
          (st.2.map (·.withCg p.cg))).2))
      else (.error .attribute, st) := rfl
  rw [e]
  by_cases h : o.slots.isSome = true
  · rw [if_pos h]
    refine (congrArg (List.map PropM.sansCg) (propsSolve_models simps fuel _ _ _ _)).trans ?_
    change List.map PropM.sansCg (List.map PropSlot.model (List.map (fun x => PropSlot.withCg p.cg x) st.2)) =
      List.map PropM.sansCg (List.map PropSlot.model st.2)
    rw [List.map_map, List.map_map, List.map_map]
    rfl
  · rw [if_neg h]

theorem models_wingSolve (d : AeroDict (Fin (sectionsOf o.wing))) (c : Option CtrlDict)
    (st : LLState (Fin (sectionsOf o.wing)) × List (PropSlot (Fin (sectionsOf o.wing)))) :
    drawnModels ((o.backend p simps fuel bad).wingSolve d c st).2 = drawnModels st := by
  have e : (o.backend p simps fuel bad).wingSolve d c st =
      if o.wing.isSome then
        ((llSolve (geomOf p.cg o.wing) st.1 "linear" (some d) c).1, ((llSolve (geomOf p.cg o.wing) st.1 "linear" (some d) c).2, st.2))
      else (.error .attribute, st) := rfl
  rw [e]
  by_cases h : o.wing.isSome = true
  · rw [if_pos h]; rfl
  · rw [if_neg h]

theorem solve_models (ps : Option PropDict) (w : World (o.backend p simps fuel bad)) :
    drawnModels (muSolve ps w).2.st = drawnModels w.st :=
  keeps_obs (B := o.backend p simps fuel bad) drawnModels models_propSolve models_wingSolve ps w

theorem history_models (hbad : ∀ s, drawnModels (bad s).2 = drawnModels s) (hist : List (AnyCall (o.backend p simps fuel bad)))
    (w : World (o.backend p simps fuel bad)) : drawnModels (afterCalls p.cg w hist).st = drawnModels w.st := by
  refine Goes.history (B := o.backend p simps fuel bad) (P := fun w w' => drawnModels w'.st = drawnModels w.st) ?_ p.cg hist w
  exact
    { refl := fun w => rfl
      trans := fun w w' w'' h1 h2 => h2.trans h1
      aero := fun w a => rfl
      ctrl := fun w c => rfl
      objs := fun w l => rfl
      files := fun w l => rfl
      prop := fun w d ps => models_propSolve d ps w.st
      wing := fun w d c => models_wingSolve d c w.st
      bad := fun w => hbad w.st }

end

theorem createStl_sansCg {ι : Type} (flt : List Char → Option ℝ) (wings : Option (List Seg × Grid)) (props : List (PropM ι)) :
    createStl flt wings (props.map PropM.sansCg) = createStl flt wings props := by
  have h1 : numFaces wings (props.map PropM.sansCg) = numFaces wings props := by
    unfold numFaces; rw [List.map_map]; rfl
  have h2 : ∀ v, (props.map PropM.sansCg).foldlM (stlProp flt) v = props.foldlM (stlProp flt) v := by
    intro v; rw [List.foldlM_map]; rfl
  unfold createStl
  rw [h1]
  simp only [h2]

theorem drawAircraft_sansCg {ι : Type} (flt : List Char → Option ℝ) (wings props : Bool) (segs : List Seg) (g : Option Grid)
    {l l' : List (PropM ι)} (h : l.map PropM.sansCg = l'.map PropM.sansCg) :
    drawAircraft flt wings props segs g l = drawAircraft flt wings props segs g l' := by
  have hc : ∀ wi, createStl flt wi l = createStl flt wi l' := fun wi => by
    rw [← createStl_sansCg flt wi l, h, createStl_sansCg]
  unfold drawAircraft
  cases props <;> simp [hc]

/-! ### C111 -/

/-- `Ws` are the surfaces of the segments of the aircraft, one for each, in order, drawn at the sections of its grid with the
airfoils it names. -/
def WingsShown (flt : List Char → Option ℝ) (p : Plane) (Ws : List Surf) : Prop :=
  Ws.length = p.segments.length ∧ ∀ g, mkGrid p true = .ok g → ∀ (k : ℕ) (s : Seg) (S : Surf), p.segments[k]? = some s →
    Ws[k]? = some S → ∃ L R, OwnOutline flt s.atLeft.name L ∧ OwnOutline flt s.atRight.name R ∧ DrawsSegment p g k s L R S

/-- `Bs` are the surfaces of the blades of the propellers of the aircraft, in order. -/
def PropsShown {ι : Type} (flt : List Char → Option ℝ) (table : String → ℝ → ℝ) (p : Plane) (pts : Option (ι → V3))
    (Bs : List (List Surf)) : Prop :=
  List.Forall₂ (fun kv S => ∃ u M, mkPropM table kv.2 p.cg u pts = .ok M ∧ M.geom = kv.2 ∧ DrawsProp flt M (drawnAngle M) S) p.props Bs

section
variable {table : String → ℝ → ℝ} {mem : String → ℕ → ℕ → Option ℝ} {simps : List ℝ → List ℝ → ℝ} {fuel : ℕ}
  {flt : List Char → Option ℝ} {o : Analyser} {p : Plane}
  {bad : Act (LLState (Fin (sectionsOf o.wing)) × List (PropSlot (Fin (sectionsOf o.wing)))) (Option Loads)}
  {a0 : Option (AeroDict (Fin (sectionsOf o.wing)))} {c0 : Option CtrlDict}

private theorem tryFinite_snd {S α : Type} (m : Act S α) (s : S) : (Act.tryFinite m s).2 = (m s).2 := by
  unfold Act.tryFinite
  rcases m s with ⟨e | y, s'⟩
  · cases e <;> rfl
  · rfl

/-- what `create_stl` draws, after any sequence of analyses -/
theorem createStl_eq (hbad : ∀ s, drawnModels (bad s).2 = drawnModels s) (hist : List (AnyCall (o.backend p simps fuel bad)))
    {r : Option (List Facet)} {w' : World (o.backend p simps fuel bad)}
    (h : o.createStl p simps fuel bad flt (afterCalls p.cg (o.fresh p simps fuel bad a0 c0) hist) = (.ok r, w')) :
    drawAircraft flt (!p.wings.isEmpty) (!p.props.isEmpty) p.segments (o.wing.map (·.grid)) (propModels (o.slots.getD [])) = .ok r := by
  unfold Analyser.createStl at h
  set w := afterCalls p.cg (o.fresh p simps fuel bad a0 c0) hist with hw
  have hst := (congrArg (fun x : World (o.backend p simps fuel bad) => drawnModels x.st)
    (tryFinite_snd (muSolve none) { w with aero := none, ctrl := none })).trans
    (solve_models (none : Option PropDict) { w with aero := none, ctrl := none })
  rcases hq : Act.tryFinite (muSolve none) { w with aero := none, ctrl := none } with ⟨e | x, w1⟩
  · rw [hq] at h; cases h
  rw [hq] at h hst
  have hm : drawnModels w1.st = (propModels (o.slots.getD [])).map PropM.sansCg := hst.trans (history_models hbad hist _)
  rw [← drawAircraft_sansCg flt _ _ _ _ hm]
  exact congrArg Prod.fst h

theorem opened_slots (hp : PropsNamed p) (h : openMachUp table mem p = .ok o) :
    List.Forall₂ (fun kv sl => sl.name = kv.1 ∧ ∃ u, mkPropM table kv.2 p.cg u (pointsOf o.wing) = .ok sl.model) p.props
      (o.slots.getD []) := by
  unfold openMachUp at h
  cases hw : mkWingPart p with
  | error e => rw [hw] at h; cases h
  | ok w =>
    rw [hw] at h
    change (if p.props = [] then _ else _) = _ at h
    by_cases hp : p.props = []
    · rw [if_pos hp] at h
      cases h
      rw [hp]
      exact .nil
    · rw [if_neg hp] at h
      cases hs : openProps table mem p (pointsOf w) with
      | error e => rw [hs] at h; cases h
      | ok s =>
        rw [hs] at h
        cases h
        exact openProps_slots ‹_› hs

private theorem forall₂_mem_right {α β : Type*} {R : α → β → Prop} {l : List α} {l' : List β} (h : List.Forall₂ R l l') {b : β}
    (hb : b ∈ l') : ∃ a ∈ l, R a b := by
  induction h with
  | nil => cases hb
  | cons h1 _ ih =>
    rcases List.mem_cons.1 hb with rfl | hb
    · exact ⟨_, by simp, h1⟩
    · obtain ⟨a, ha, hr⟩ := ih hb
      exact ⟨a, by simp [ha], hr⟩

theorem wing_grid {W : WingPart} (hw : mkWingPart p = .ok (some W)) : mkGrid p true = .ok W.grid := by
  unfold mkWingPart at hw
  by_cases hwi : p.wings = []
  · rw [if_pos hwi] at hw; cases hw
  rw [if_neg hwi] at hw
  cases hg : mkGrid p true with
  | error e => rw [hg] at hw; cases hw
  | ok g =>
    rw [hg] at hw
    cases hr : refLengths p g.refArea with
    | error e => simp [hr, bind, Except.bind] at hw
    | ok r =>
      simp only [bind, Except.bind, hr] at hw
      cases hw
      rfl

/-- **C111, the drawing.**  Let `o` be a `MachUp` object for an aircraft built through the API (with any `units` entry, as after reading
a file), with wings or propellers and at least one section per segment.  After any sequence of calls of the analysis
methods with any arguments, successful or not, if `create_stl` returns, it has saved exactly the triangles of the segments and propellers of the aircraft. -/
theorem C111_drawing_partial {nm : String} {pos : Option V3} {ops : List PlaneOp} {units : Option (Option String)}
    (hb : p = { built nm pos ops with units }) (h : openMachUp table mem p = .ok o)
    (hn : ∀ s ∈ p.segments, 1 ≤ s.n) (hp : p.wings ≠ [] ∨ p.props ≠ [])
    (hbad : ∀ s, drawnModels (bad s).2 = drawnModels s) (hist : List (AnyCall (o.backend p simps fuel bad)))
    {r : Option (List Facet)} {w' : World (o.backend p simps fuel bad)}
    (hr : o.createStl p simps fuel bad flt (afterCalls p.cg (o.fresh p simps fuel bad a0 c0) hist) = (.ok r, w')) :
    ∃ Ws Bs, r = some ((Ws ++ Bs.flatten).flatMap Surf.facets) ∧ WingsShown flt p Ws ∧
      PropsShown flt table p (pointsOf o.wing) Bs := by
  have hd := createStl_eq hbad hist hr
  obtain ⟨hw, -⟩ := openMachUp_ok table mem h
  have hnm : PropsNamed p := by rw [hb]; exact propsNamed_built nm pos ops
  have hsl := opened_slots hnm h
  set sls := o.slots.getD [] with hsls
  have hcons : ∀ M ∈ propModels sls, Constructed M := by
    intro M hM
    obtain ⟨sl, hs, rfl⟩ := List.mem_map.1 hM
    obtain ⟨kv, -, -, u, hu⟩ := forall₂_mem_right hsl hs
    exact ⟨_, _, _, _, _, hu⟩
  have hshown : ∀ Bs, List.Forall₂ (fun M S => DrawsProp flt M (drawnAngle M) S) (propModels sls) Bs →
      PropsShown flt table p (pointsOf o.wing) Bs := by
    intro Bs hB
    unfold propModels at hB
    rw [List.forall₂_map_left_iff] at hB
    unfold PropsShown
    clear hd hcons
    generalize p.props = ps at hsl
    generalize sls = sl at hsl hB
    induction hsl generalizing Bs with
    | nil => cases hB; exact .nil
    | cons h1 _ ih =>
      cases hB with
      | cons h2 h3 =>
        obtain ⟨-, u, hu⟩ := h1
        exact .cons ⟨u, _, hu, mkPropM_geom hu, h2⟩ (ih _ h3)
  unfold drawAircraft at hd
  by_cases hwi : p.wings = []
  · have hpr : p.props ≠ [] := hp.resolve_left fun h => h hwi
    simp only [hwi, List.isEmpty_nil, Bool.not_true, Bool.false_eq_true, if_false, List.isEmpty_eq_false_iff.2 hpr, Bool.not_false,
      if_true] at hd
    rcases hm : createStl flt none (propModels sls) with e | mesh
    · rw [hm] at hd; cases hd
    rw [hm] at hd
    cases hd
    obtain ⟨Bs, h1, h2, -⟩ := C72_props hm hcons
    have hseg : p.segments = [] := by simp [Plane.segments, Plane.wingList, hwi]
    exact ⟨[], Bs, by rw [h2]; rfl, ⟨by rw [hseg]; rfl, by simp [hseg]⟩, hshown Bs h1⟩
  · obtain ⟨W, hW⟩ := Option.isSome_iff_exists.1 ((wing_isSome hw).2 hwi)
    simp only [List.isEmpty_eq_false_iff.2 hwi, Bool.not_false, if_true, hW, Option.map_some] at hd
    have hg := wing_grid (hW ▸ hw)
    by_cases hs : p.segments.map Seg.n = W.grid.slices.map (fun ab => ab.2 - ab.1)
    · rw [if_pos hs] at hd
      have hmod : (if (!p.props.isEmpty) = true then propModels sls else []) = propModels sls := by
        by_cases hpe : p.props = []
        · rw [hpe] at hsl
          have : sls = [] := List.forall₂_nil_left_iff.1 hsl
          simp [propModels, this]
        · simp [List.isEmpty_eq_false_iff.2 hpe]
      rw [hmod] at hd
      rcases hm : createStl flt (some (p.segments, W.grid)) (propModels sls) with e | mesh
      · rw [hm] at hd; cases hd
      rw [hm] at hd
      cases hd
      have hseg : p.segments = (built nm pos ops).segments := by rw [hb]; rfl
      have hg' : mkGrid (built nm pos ops) true = .ok W.grid := by
        rw [← hg, hb]
        exact mkGrid_congr (by rfl) (by rfl) (by rfl) true
      rw [hseg] at hm hn
      obtain ⟨Ws, Bs, h1, h2, h3, h4, -⟩ := C72_aircraft hg' hn hcons hm
      refine ⟨Ws, Bs, by rw [h4], ⟨by rw [hseg, h1], fun g hg1 k s S hk hS => ?_⟩, hshown Bs h3⟩
      rw [hg] at hg1
      cases hg1
      obtain ⟨L, R, q1, q2, q3⟩ := h2 k s S (by rw [← hseg]; exact hk) hS
      refine ⟨L, R, q1, q2, ?_⟩
      rw [hb]
      exact q3
    · rw [if_neg hs] at hd
      cases hd

/-- **C111, whatever was analysed before**, with any methods and any arguments. -/
theorem C111_again (hbad : ∀ s, drawnModels (bad s).2 = drawnModels s) (hist hist' : List (AnyCall (o.backend p simps fuel bad))) {a1 : Option (AeroDict (Fin (sectionsOf o.wing)))}
    {c1 : Option CtrlDict} {r r' : Option (List Facet)} {w w' : World (o.backend p simps fuel bad)}
    (h : o.createStl p simps fuel bad flt (afterCalls p.cg (o.fresh p simps fuel bad a0 c0) hist) = (.ok r, w))
    (h' : o.createStl p simps fuel bad flt (afterCalls p.cg (o.fresh p simps fuel bad a1 c1) hist') = (.ok r', w')) : r = r' :=
  Except.ok.inj ((createStl_eq hbad hist h).symm.trans (createStl_eq hbad hist' h'))

/-- **C111, nothing else changes.**  Whether `create_stl` returns or raises: dictionaries of the caller and other files are
unchanged. -/
theorem C111_frame (w : World (o.backend p simps fuel bad)) :
    (o.createStl p simps fuel bad flt w).2.aero = w.aero ∧ (o.createStl p simps fuel bad flt w).2.ctrl = w.ctrl ∧
      (o.createStl p simps fuel bad flt w).2.files = w.files := by
  have hf : (Act.tryFinite (muSolve none) { w with aero := none, ctrl := none }).2.files = w.files := by
    rw [tryFinite_snd]
    exact keeps_muSolve_files (B := o.backend p simps fuel bad) none { w with aero := none, ctrl := none }
  unfold Analyser.createStl
  rcases hq : Act.tryFinite (muSolve none) { w with aero := none, ctrl := none } with ⟨e | x, w1⟩ <;>
  · rw [hq] at hf
    exact ⟨rfl, rfl, hf⟩

/-- **C111, `create_stl` returns.**  For aircraft whose airfoil names can be drawn, `create_stl` saves a file if the analysis it starts
with (`solve()` without arguments) does not raise.  Missing: other airfoil names (see C75). -/
theorem C111_returns_partial {nm : String} {pos : Option V3} {ops : List PlaneOp} {units : Option (Option String)}
    (hb : p = { built nm pos ops with units }) (h : openMachUp table mem p = .ok o)
    (hn : ∀ s ∈ p.segments, 1 ≤ s.n) (hp : p.wings ≠ [] ∨ p.props ≠ [])
    (hd : ∀ s ∈ p.segments, Drawable flt s.root.name ∧ Drawable flt s.tip.name)
    (hq : ∀ kv ∈ p.props, kv.2.blades ≠ 0 ∧ (kv.2.airfoils = [] → Drawable flt "NACA2412") ∧
      ∀ a ∈ kv.2.airfoils, Drawable flt a.2.name)
    (hbad : ∀ s, drawnModels (bad s).2 = drawnModels s) (hist : List (AnyCall (o.backend p simps fuel bad)))
    (hs : ∀ e, (muSolve none { afterCalls p.cg (o.fresh p simps fuel bad a0 c0) hist with aero := none, ctrl := none }).1 = .error e →
      e = .nonfinite) :
    ∃ mesh w', o.createStl p simps fuel bad flt (afterCalls p.cg (o.fresh p simps fuel bad a0 c0) hist) = (.ok (some mesh), w') := by
  obtain ⟨hw, -⟩ := openMachUp_ok table mem h
  have hnm : PropsNamed p := by rw [hb]; exact propsNamed_built nm pos ops
  have hsl := opened_slots hnm h
  set sls := o.slots.getD [] with hsls
  have hcons : ∀ M ∈ propModels sls, PropDrawable flt M := by
    intro M hM
    obtain ⟨sl, hs, rfl⟩ := List.mem_map.1 hM
    obtain ⟨kv, hkv, -, u, hu⟩ := forall₂_mem_right hsl hs
    refine ⟨⟨_, _, _, _, _, hu⟩, ?_⟩
    rw [mkPropM_geom hu]
    exact hq kv hkv
  have hdraw : ∃ mesh, drawAircraft flt (!p.wings.isEmpty) (!p.props.isEmpty) p.segments (o.wing.map (·.grid)) (propModels sls) =
      .ok (some mesh) := by
    unfold drawAircraft
    by_cases hwi : p.wings = []
    · have hpr : p.props ≠ [] := hp.resolve_left fun h => h hwi
      simp only [hwi, List.isEmpty_nil, Bool.not_true, Bool.false_eq_true, if_false, List.isEmpty_eq_false_iff.2 hpr, Bool.not_false,
        if_true]
      obtain ⟨mesh, hm⟩ := C72_props_total hcons
      exact ⟨mesh, by rw [hm]; rfl⟩
    · obtain ⟨W, hW⟩ := Option.isSome_iff_exists.1 ((wing_isSome hw).2 hwi)
      simp only [List.isEmpty_eq_false_iff.2 hwi, Bool.not_false, if_true, hW, Option.map_some]
      have hg := wing_grid (hW ▸ hw)
      have hseg : p.segments = (built nm pos ops).segments := by rw [hb]; rfl
      have hg' : mkGrid (built nm pos ops) true = .ok W.grid := by
        rw [← hg, hb]
        exact mkGrid_congr (by rfl) (by rfl) (by rfl) true
      have hsli : p.segments.map Seg.n = W.grid.slices.map (fun ab => ab.2 - ab.1) := by
        obtain ⟨-, -, h3, -⟩ := C16_concatenation hg'
        rw [hseg]
        generalize (built nm pos ops).segments = l at h3
        generalize W.grid.slices = l' at h3
        induction h3 with
        | nil => rfl
        | cons h1 _ ih => rw [List.map_cons, List.map_cons, ih, h1]; simp
      rw [if_pos hsli]
      have hcons' : ∀ M ∈ (if (!p.props.isEmpty) = true then propModels sls else []), PropDrawable flt M := by
        intro M hM
        split_ifs at hM
        · exact hcons M hM
        · cases hM
      rw [hseg] at hn hd ⊢
      obtain ⟨mesh, hm⟩ := C72_total hg' hn hd hcons'
      exact ⟨mesh, by rw [hm]; rfl⟩
  obtain ⟨mesh, hdraw⟩ := hdraw
  unfold Analyser.createStl
  set w := afterCalls p.cg (o.fresh p simps fuel bad a0 c0) hist with hwdef
  have hst := (congrArg (fun x : World (o.backend p simps fuel bad) => drawnModels x.st)
    (tryFinite_snd (muSolve none) { w with aero := none, ctrl := none })).trans
    (solve_models (none : Option PropDict) { w with aero := none, ctrl := none })
  rcases hq : Act.tryFinite (muSolve none) { w with aero := none, ctrl := none } with ⟨e | x, w1⟩
  · exfalso
    unfold Act.tryFinite at hq
    rcases hm : muSolve (B := o.backend p simps fuel bad) none { w with aero := none, ctrl := none } with ⟨e' | y, w2⟩
    · rw [hm] at hq
      have he : e' = .nonfinite := hs e' (congrArg Prod.fst hm)
      subst he
      simp at hq
    · rw [hm] at hq
      simp at hq
  · rw [hq] at hst
    have hm : drawnModels w1.st = (propModels sls).map PropM.sansCg := hst.trans (history_models hbad hist _)
    refine ⟨mesh, { w1 with aero := w.aero, ctrl := w.ctrl }, ?_⟩
    simp only
    rw [drawAircraft_sansCg flt _ _ _ _ hm, hdraw]

/-- **C111 fails for an aircraft without wings and propellers**: `create_stl` returns without having saved anything (it prints
`Geometry output to:` with the file name nevertheless). -/
theorem empty_stl (hw : p.wings = []) (hp : p.props = []) (w : World (o.backend p simps fuel bad)) :
    (o.createStl p simps fuel bad flt w).1 = .ok none := by
  have h1 : (o.backend p simps fuel bad).hasProps = false := by
    show (!p.props.isEmpty) = false
    rw [hp]; rfl
  have h2 : (o.backend p simps fuel bad).hasWings = false := by
    show (!p.wings.isEmpty) = false
    rw [hw]; rfl
  have hs : ∃ y w', muSolve none ({ w with aero := none, ctrl := none } : World (o.backend p simps fuel bad)) = (.ok y, w') := by
    unfold muSolve
    rw [get_bind, if_neg (by simp [aeroGiven]), bind_def]
    unfold withAero solveParts
    rw [bind_of_ok (show getAero id ({ w with aero := some defaultAeroDict, ctrl := none } : World (o.backend p simps fuel bad)) = (.ok defaultAeroDict, _) from rfl)]
    unfold solveProps solveWings
    rw [if_neg (by simp [h1]), if_neg (by simp [h2])]
    exact ⟨_, _, rfl⟩
  obtain ⟨y, w', hs⟩ := hs
  unfold Analyser.createStl Act.tryFinite
  rw [hs]
  simp [drawAircraft, hw, hp]

/-- **C111** (negation): `create_stl` may return without having saved a file. -/
theorem C111_refuted (table : String → ℝ → ℝ) (mem : String → ℕ → ℕ → Option ℝ) (simps : List ℝ → List ℝ → ℝ) (fuel : ℕ)
    (flt : List Char → Option ℝ) :
    ¬ ∀ (nm : String) (pos : Option V3) (ops : List PlaneOp) (o : Analyser), openMachUp table mem (built nm pos ops) = .ok o →
      ∀ (bad : _) (w : World (o.backend (built nm pos ops) simps fuel bad)) (r : Option (List Facet)) (w' : _),
        o.createStl (built nm pos ops) simps fuel bad flt w = (.ok r, w') → ∃ mesh, r = some mesh := by
  intro h
  have ho : openMachUp table mem (built "empty" none []) = .ok ⟨none, none⟩ := by
    simp [openMachUp, built, runOps, newPlane, mkWingPart]
  have hr := empty_stl (o := ⟨none, none⟩) (p := built "empty" none []) (simps := simps) (fuel := fuel) (flt := flt)
    (bad := fun s => (.ok none, s)) rfl rfl (Analyser.fresh _ _ _ _ _ none none)
  obtain ⟨mesh, hm⟩ := h "empty" none [] _ ho (fun s => (.ok none, s)) (Analyser.fresh _ _ _ _ _ none none) none _ (Prod.ext hr rfl)
  cases hm

end

/-! ### The hypotheses are met -/

/-- an aircraft with the propeller `demoProp` and nothing else, as from a file with SI units -/
noncomputable def fanOps : List PlaneOp :=
  [.addProp "prop" { position := some ⟨-1, 0, 0⟩, nodes := some 2, diameter := some 2, hubDiameter := some 1
                     rotDir := some (.str "CCW"), pitch := some { type := some "ratio", value := some 1 }
                     chord := some { type := some "linear", root := some 0.07585, tip := some 0.1515483 } },
   .propAirfoil "prop" "sym" { al0 := some 0, cla := some 6, clMax := some 1.2, cml0 := some 0, cma := some 0
                               cd0 := some 0.01, cd1 := some 0, cd2 := some 0.01 }]

noncomputable def fanPlane : Plane := { built "fan" none fanOps with units := some none }

theorem fan_built : built "fan" none fanOps = { newPlane "fan" none with props := [("prop", demoProp)] } := by
  have hfoil : mkAirfoil "sym" { al0 := some 0, cla := some 6, clMax := some 1.2, cml0 := some 0, cma := some 0
                                 cd0 := some 0.01, cd1 := some 0, cd2 := some 0.01 } = .ok demoFoil := by
    unfold mkAirfoil; rw [if_pos (by simp [AirfoilProps.truthy])]; rfl
  simp only [built, runOps, fanOps, List.foldl, PlaneOp.run, Plane.addProp, Plane.propAirfoil, newPlane, dictSet]
  rw [hfoil]
  simp [dictGet, dictSet, mkProp, demoProp]

theorem fan_props : fanPlane.props = [("prop", demoProp)] := by
  unfold fanPlane; rw [fan_built]

theorem fan_wings : fanPlane.wings = [] := by
  unfold fanPlane; rw [fan_built]; rfl

theorem solve_propsOnly {ι : Type} {B : Backend ι} (hP : B.hasProps = true) (hW : B.hasWings = false) {ps : Option B.π} {w : World B}
    (hw : w.aero = none) {r : PropTotals} {f : Option (ι → ℝ × V3)} {st' : B.σ} (h : B.propSolve defaultAeroDict ps w.st = (.ok (r, f), st')) :
    ∃ T w', muSolve ps w = (.ok T, w') := by
  unfold muSolve
  rw [get_bind, if_neg (by simp [aeroGiven, hw]), bind_def]
  unfold withAero solveParts
  rw [bind_of_ok (show getAero id ({ w with aero := some defaultAeroDict } : World B) = (.ok defaultAeroDict, _) from rfl)]
  unfold solveProps solveWings
  rw [if_pos hP, if_neg (by simp [hW]), bind_def, bind_def]
  unfold onSolver
  simp only [h]
  cases f <;> exact ⟨_, _, rfl⟩

/-- C111: for the aircraft with the propeller `create_stl` returns and draws (`C111_drawing_partial` applies) -/
example (table : String → ℝ → ℝ) : ∃ mem o, openMachUp table mem fanPlane = .ok o ∧ ∃ mesh w',
    o.createStl fanPlane (fun _ _ => 1) 1 (fun s => (.ok none, s)) digitsFlt
      (o.fresh fanPlane (fun _ _ => 1) 1 (fun s => (.ok none, s)) none none) = (.ok (some mesh), w') := by
  obtain ⟨M, hM, -⟩ := demo_ok (ι := Fin 0) table fanPlane.cg none none
  obtain ⟨mem, hr⟩ := demo_run hM 10 0.0023769 (J := 0.5) (by norm_num) (by norm_num) (fun _ => 1) _ 0 []
    (fun s => set_empty M 10 s) 15
  obtain ⟨out, s1, r1, -⟩ := hr (fun _ _ => 1) 0
  have hopen : openMachUp table (fun _ => mem) fanPlane = .ok ⟨none, some [⟨"prop", M, { mem }, none⟩]⟩ := by
    unfold openMachUp mkWingPart
    rw [if_pos fan_wings]
    simp only [bind, Except.bind, fan_props]
    rw [if_neg (by simp)]
    unfold openProps
    rw [fan_props]
    have hu : fanPlane.getUnits = .ok none := rfl
    have hM' : mkPropM table demoProp fanPlane.cg none (pointsOf none) = .ok M := hM
    simp only [hu, List.map_cons, List.map_nil, List.foldlM_cons, List.foldlM_nil, bind, Except.bind, pure, Except.pure, hM', dictSet]
    rfl
  refine ⟨fun _ => mem, _, hopen, ?_⟩
  have hb : fanPlane = { built "fan" none fanOps with units := some none } := rfl
  refine C111_returns_partial (hist := []) hb hopen ?_
    (.inr (by rw [fan_props]; simp)) ?_ ?_ (fun _ => rfl) ?_
  · simp [Plane.segments, Plane.wingList, fan_wings]
  · simp [Plane.segments, Plane.wingList, fan_wings]
  · rw [fan_props]
    intro kv hkv
    obtain rfl := List.mem_singleton.1 hkv
    refine ⟨by simp [demoProp], by simp [demoProp], ?_⟩
    intro a ha
    obtain rfl := List.mem_singleton.1 ha
    exact drawable_sym
  · intro e he
    obtain ⟨⟨rL, rD, rS⟩, hrot⟩ := demo_rotate (0 + out.F)
    have l1 : localPS [] "prop" = .ok [] := by simp [localPS]
    have hl : propsLoop (fun _ _ => 1) 1 (some (defaultAeroDict : AeroDict (Fin 0))) [] [⟨"prop", M, { mem }, none⟩] {} =
        (.ok ({ F := 0 + out.F, M := 0 + out.M, last := some (out.T, out.l) }, [out]), [⟨"prop", M, s1, some out⟩]) := by
      have r1' : runProp (fun _ _ => 1) 1 M (some (defaultAeroDict : AeroDict (Fin 0))) [] { mem } = (.ok out, s1) := r1
      simp only [propsLoop, l1, r1']
    have hf : ∃ tot, propsForces (fun _ _ => 1) 1 (some (defaultAeroDict : AeroDict (Fin 0))) [] [⟨"prop", M, { mem }, none⟩] =
        (.ok (tot, [out]), [⟨"prop", M, s1, some out⟩]) := by
      unfold propsForces
      have a0 : ((defaultAeroDict : AeroDict (Fin 0)).alpha).getD 0 = 0 := rfl
      have b0 : ((defaultAeroDict : AeroDict (Fin 0)).beta).getD 0 = 0 := rfl
      simp only [hl, a0, b0, freestream_zero, hrot]
      exact ⟨_, rfl⟩
    obtain ⟨tot, hf⟩ := hf
    have hcg : PropSlot.withCg fanPlane.cg (⟨"prop", M, { mem }, none⟩ : PropSlot (Fin 0)) = ⟨"prop", M, { mem }, none⟩ := by
      have := mkPropM_cg table demoProp fanPlane.cg fanPlane.cg none (none : Option (Fin 0 → V3))
      rw [hM] at this
      exact congrArg (fun m : PropM (Fin 0) => (⟨"prop", m, { mem }, none⟩ : PropSlot (Fin 0))) (Except.ok.inj this).symm
    have hps : propsSolve (fun _ _ => 1) 1 none (some (defaultAeroDict : AeroDict (Fin 0))) [] [⟨"prop", M, { mem }, none⟩] =
        (.ok (tot, none), [⟨"prop", M, s1, some out⟩]) := by
      unfold propsSolve
      rw [bind_of_ok hf]
      rfl
    have hB : (Analyser.backend ⟨none, some [⟨"prop", M, { mem }, none⟩]⟩ fanPlane (fun _ _ => 1) 1 (fun s => (.ok none, s))).propSolve
        defaultAeroDict none (LLState.init _, [⟨"prop", M, { mem }, none⟩]) =
        (.ok (tot, none), (LLState.init _, [⟨"prop", M, s1, some out⟩])) := by
      have hps' : propsSolve (fun _ _ => 1) 1 (if (!fanPlane.wings.isEmpty) = true then pointsOf none else none)
          (some (defaultAeroDict : AeroDict (Fin 0))) [] ([(⟨"prop", M, { mem }, none⟩ : PropSlot (Fin 0))].map (·.withCg fanPlane.cg)) =
        (.ok (tot, none), [⟨"prop", M, s1, some out⟩]) := by
        rw [fan_wings]
        exact (congrArg (fun x : PropSlot (Fin 0) => propsSolve (fun _ _ => 1) 1 none (some defaultAeroDict) [] [x]) hcg).trans hps
      have e := congrArg (fun x => (x.1, (LLState.init (Fin 0), x.2))) hps'
      exact e
    obtain ⟨T, w', hT⟩ := solve_propsOnly (B := Analyser.backend ⟨none, some [⟨"prop", M, { mem }, none⟩]⟩ fanPlane (fun _ _ => 1) 1
      (fun s => (.ok none, s))) (by show (!fanPlane.props.isEmpty) = true; rw [fan_props]; rfl)
      (by show (!fanPlane.wings.isEmpty) = false; rw [fan_wings]; rfl)
      (w := { (Analyser.fresh ⟨none, some [⟨"prop", M, { mem }, none⟩]⟩ fanPlane (fun _ _ => 1) 1 (fun s => (.ok none, s)) none none) with
        aero := none, ctrl := none }) rfl hB
    cases (congrArg Prod.fst hT).symm.trans he

end Verif
