import Verif.Spec.Rename
import Verif.Thm.Halves

/-!
# The names of wings are only labels (C139)
-/

namespace Verif
open V3

/-- the same segment under another name -/
private def SegNamed (s s' : Seg) : Prop := s' = { s with name := s'.name }

/-- the same wing under another name -/
private inductive WingNamed : Wing → Wing → Prop
  | both {l r l' r' : Seg} (hl : SegNamed l l') (hr : SegNamed r r') : WingNamed (.both l r) (.both l' r')
  | onlyLeft {l l' : Seg} (hl : SegNamed l l') : WingNamed (.onlyLeft l) (.onlyLeft l')
  | onlyRight {r r' : Seg} (hr : SegNamed r r') : WingNamed (.onlyRight r) (.onlyRight r')

private theorem WingNamed.map {W W' : Wing} (h : WingNamed W W') {f : Seg → Seg} (hf : ∀ s s', SegNamed s s' → SegNamed (f s) (f s')) :
    WingNamed (W.mapSegs f) (W'.mapSegs f) := by
  cases h with
  | both hl hr => exact .both (hf _ _ hl) (hf _ _ hr)
  | onlyLeft hl => exact .onlyLeft (hf _ _ hl)
  | onlyRight hr => exact .onlyRight (hf _ _ hr)

private structure PlaneNamed (ρ : String → String) (p p' : Plane) : Prop where
  heap : List.Forall₂ WingNamed p.heap p'.heap
  wings : p'.wings = p.wings.map fun kv => (ρ kv.1, kv.2)
  props : p'.props = p.props
  cg : p'.cg = p.cg
  position : p'.position = p.position
  latRef : p'.latRef = p.latRef
  longRef : p'.longRef = p.longRef
  units : p'.units = p.units

private theorem dictSet_named {ρ : String → String} (hρ : Function.Injective ρ) (d : List (String × ℕ)) (k : String) (v : ℕ) :
    dictSet (d.map fun kv => (ρ kv.1, kv.2)) (ρ k) v = (dictSet d k v).map fun kv => (ρ kv.1, kv.2) := by
  induction d with
  | nil => rfl
  | cons kv t ih =>
    obtain ⟨k', v'⟩ := kv
    by_cases hk : k' = k
    · subst hk; simp [dictSet]
    · have : ρ k' ≠ ρ k := fun e => hk (hρ e)
      simp [dictSet, hk, this, ih]

private theorem dictGet_named {ρ : String → String} (hρ : Function.Injective ρ) (d : List (String × ℕ)) (k : String) :
    dictGet (d.map fun kv => (ρ kv.1, kv.2)) (ρ k) = dictGet d k := by
  induction d with
  | nil => rfl
  | cons kv t ih =>
    obtain ⟨k', v'⟩ := kv
    by_cases hk : k' = k
    · subst hk; simp [dictGet]
    · have : ρ k' ≠ ρ k := fun e => hk (hρ e)
      simp [dictGet, hk, this, ih]

private theorem modify_named {l l' : List Wing} (h : List.Forall₂ WingNamed l l') (f : Seg → Seg)
    (hf : ∀ s s', SegNamed s s' → SegNamed (f s) (f s')) : ∀ i,
    List.Forall₂ WingNamed (l.modify i (·.mapSegs f)) (l'.modify i (·.mapSegs f)) := by
  induction h with
  | nil => intro i; simp
  | cons h1 h2 ih =>
    intro i
    cases i with
    | zero => simpa using ⟨h1.map hf, h2⟩
    | succ i => simpa using ⟨h1, ih i⟩

private theorem PlaneNamed.run {ρ : String → String} (hρ : Function.Injective ρ) (h0 : ρ "" = "") {p p' : Plane} (h : PlaneNamed ρ p p')
    (op : PlaneOp) : PlaneNamed ρ (op.run p) ((op.renameWings ρ).run p') := by
  cases op with
  | addWing nm parent location side d =>
    have hlen := h.heap.length_eq
    simp only [PlaneOp.renameWings, PlaneOp.run, addWing_eq]
    have hmk : (∃ e, mkWing nm side d = .error e ∧ mkWing (ρ nm) side d = .error e) ∨
        ∃ W W', mkWing nm side d = .ok W ∧ mkWing (ρ nm) side d = .ok W' ∧ WingNamed W W' := by
      unfold mkWing
      split_ifs
      · exact .inr ⟨_, _, rfl, rfl, .both rfl rfl⟩
      · exact .inr ⟨_, _, rfl, rfl, .onlyRight rfl⟩
      · exact .inr ⟨_, _, rfl, rfl, .onlyLeft rfl⟩
      · exact .inl ⟨_, rfl, rfl⟩
    have hws : dictSet p'.wings (ρ nm) p'.heap.length = (dictSet p.wings nm p.heap.length).map fun kv => (ρ kv.1, kv.2) := by
      rw [h.wings, ← hlen, dictSet_named hρ]
    have ht : targetOf (dictSet p'.wings (ρ nm) p'.heap.length) (parent.map ρ) = targetOf (dictSet p.wings nm p.heap.length) parent := by
      rw [targetOf_congr (ws := dictSet p.wings nm p.heap.length) (parent := parent) id (by rintro rfl; rfl) (by rintro rfl; simp [h0])]
      · cases targetOf (dictSet p.wings nm p.heap.length) parent with
        | error e => rfl
        | ok t => cases t <;> rfl
      · rintro q rfl hq
        exact ⟨ρ q, rfl, fun e => hq (hρ (e.trans h0.symm)), by rw [hws, dictGet_named hρ]; simp⟩
    rcases hmk with ⟨e, m1, m2⟩ | ⟨W, W', m1, m2, hW⟩
    · rw [m1, m2]; exact h
    · rw [m1, m2, ht]
      simp only
      cases targetOf (dictSet p.wings nm p.heap.length) parent with
      | error e => exact { h with heap := List.rel_append h.heap (.cons hW .nil), wings := hws }
      | ok t =>
        refine { h with heap := List.rel_append h.heap (.cons (hW.map fun s s' hs => ?_) .nil), wings := hws }
        unfold SegNamed at hs ⊢
        rw [hs]; rfl
  | airfoil id nm e q =>
    simp only [PlaneOp.renameWings, PlaneOp.run, Plane.wingAirfoil]
    cases mkAirfoil nm q with
    | error er => exact h
    | ok a =>
      refine { h with heap := modify_named h.heap _ (fun s s' hs => ?_) id }
      unfold SegNamed at hs ⊢
      rw [hs]
      simp only [Seg.setAirfoil]
      split_ifs <;> rfl
  | controlSurface id q =>
    simp only [PlaneOp.renameWings, PlaneOp.run, Plane.wingCtrl]
    cases mkCtrlSurf q with
    | error er => exact h
    | ok a =>
      refine { h with heap := modify_named h.heap _ (fun s s' hs => ?_) id }
      unfold SegNamed at hs ⊢
      rw [hs]
  | addProp name d => exact { h with props := by simp only [PlaneOp.renameWings, PlaneOp.run, Plane.addProp, h.props] }
  | propAirfoil name af props =>
    simp only [PlaneOp.renameWings, PlaneOp.run, Plane.propAirfoil]
    cases mkAirfoil af props with
    | error er => exact h
    | ok a =>
      simp only [h.props]
      cases dictGet p.props name with
      | none => exact h
      | some q => exact { h with props := rfl }
  | cgLocation a b c => exact { h with cg := by simp only [PlaneOp.renameWings, PlaneOp.run, Plane.cgLocation, h.cg] }
  | setRefLengths a b => exact { h with latRef := rfl, longRef := rfl }

private theorem PlaneNamed.runOps {ρ : String → String} (hρ : Function.Injective ρ) (h0 : ρ "" = "") (ops : List PlaneOp) :
    ∀ {p p' : Plane}, PlaneNamed ρ p p' → PlaneNamed ρ (runOps p ops) (runOps p' (ops.map (PlaneOp.renameWings ρ))) := by
  induction ops with
  | nil => intro p p' h; exact h
  | cons op t ih => intro p p' h; exact ih (h.run hρ h0 op)

private theorem named_get {l l' : List Wing} (h : List.Forall₂ WingNamed l l') (i : ℕ) :
    (l[i]? = none ∧ l'[i]? = none) ∨ ∃ W W', l[i]? = some W ∧ l'[i]? = some W' ∧ WingNamed W W' := by
  induction h generalizing i with
  | nil => simp
  | cons h1 _ ih =>
    cases i with
    | zero => exact .inr ⟨_, _, rfl, rfl, h1⟩
    | succ i => simpa using ih i

private theorem PlaneNamed.segPos {ρ : String → String} {p p' : Plane} (h : PlaneNamed ρ p p') : ∀ (f : ℕ) {s s' : Seg}, SegNamed s s' →
    ∀ t, segPos p' f s' t = segPos p f s t := by
  intro f
  induction f with
  | zero => intro s s' _ t; rfl
  | succ f ih =>
    intro s s' hs t
    have e1 : s'.tipOffset t = s.tipOffset t := by rw [hs]; rfl
    have e2 : s'.parent = s.parent := by rw [hs]
    have e3 : s'.connectAt = s.connectAt := by rw [hs]
    have hc : (∃ e, connTarget p s = .error e ∧ connTarget p' s' = .error e) ∨ (connTarget p s = .ok none ∧ connTarget p' s' = .ok none) ∨
        ∃ q q' t, connTarget p s = .ok (some (q, t)) ∧ connTarget p' s' = .ok (some (q', t)) ∧ SegNamed q q' := by
      unfold connTarget
      rw [e2, e3]
      cases s.parent with
      | none => exact .inr (.inl ⟨rfl, rfl⟩)
      | plane => exact .inr (.inl ⟨rfl, rfl⟩)
      | wing id =>
        rcases named_get h.heap id with ⟨g1, g2⟩ | ⟨W, W', g1, g2, hW⟩
        · simp only [g1, g2]; exact .inl ⟨_, rfl, rfl⟩
        · simp only [g1, g2]
          cases TipAt.ofStr s.connectAt with
          | error e => exact .inl ⟨_, rfl, rfl⟩
          | ok t =>
            cases t <;> cases hW <;>
              first
              | exact .inr (.inr ⟨_, _, _, rfl, rfl, by assumption⟩)
              | exact .inl ⟨_, rfl, rfl⟩
    rw [segPos_succ, segPos_succ, e1]
    rcases hc with ⟨e, c1, c2⟩ | ⟨c1, c2⟩ | ⟨q, q', t', c1, c2, hq⟩
    · rw [c1, c2]
    · rw [c1, c2]
      simp only
      have : basePos p' s' = basePos p s := by
        unfold basePos Plane.getPosition
        rw [e2, h.position]
      rw [this]
    · rw [c1, c2]
      simp only
      rw [ih hq t']

private theorem PlaneNamed.segAlike {ρ : String → String} {p p' : Plane} (h : PlaneNamed ρ p p') {s s' : Seg} (hss : SegNamed s s')
    (c : Bool) : SegAlike p p' c s s' := by
  have hpos : ∀ t, p'.segPosition s' t = p.segPosition s t := by
    intro t
    unfold Plane.segPosition
    rw [← h.heap.length_eq]
    exact h.segPos _ hss t
  refine ⟨by rw [hss], by rw [hss], by rw [hss], ?_⟩
  unfold segData
  rw [hpos, hpos]
  have f1 : s'.n = s.n := by rw [hss]
  have f2 : s'.csSpan = s.csSpan := by rw [hss]; rfl
  have f3 : s'.flapChord = s.flapChord := by rw [hss]; rfl
  have f4 : s'.covers = s.covers := by rw [hss]; rfl
  rw [f1, f2, f3, f4]
  by_cases h0 : c = true ∧ s.n = 0
  · simp only [h0, and_self, if_true]; rfl
  simp only [h0, if_false]
  cases p.segPosition s .leftTip with
  | error e => rfl
  | ok l =>
    cases p.segPosition s .rightTip with
    | error e => rfl
    | ok r =>
      simp only
      split_ifs
      · rfl
      · rfl
      · rfl
      · simp only [Except.map, Except.ok.injEq, List.map_map]
        apply List.map_congr_left
        intro i _
        rw [hss]
        rfl

private theorem PlaneNamed.relabels {ρ : String → String} {p p' : Plane} (h : PlaneNamed ρ p p') : Relabels p p' := by
  refine ⟨?_, ?_, h.props, h.cg, h.units, h.latRef, h.longRef⟩
  · rw [segments_listed, segments_listed, h.wings]
    generalize p.wings = ws
    induction ws with
    | nil => exact .nil
    | cons kv t ih =>
      rw [List.map_cons, List.flatMap_cons, List.flatMap_cons]
      refine List.rel_append ?_ ih
      rcases named_get h.heap kv.2 with ⟨g1, g2⟩ | ⟨W, W', g1, g2, hW⟩
      · simp only [g1, g2]; exact .nil
      · simp only [g1, g2, Option.map_some, Option.getD_some]
        cases hW with
        | both hl hr => exact .cons (h.segAlike hl true) (.cons (h.segAlike hr true) .nil)
        | onlyLeft hl => exact .cons (h.segAlike hl true) .nil
        | onlyRight hr => exact .cons (h.segAlike hr true) .nil
  · rw [h.wings]; simp

/-- the two aircraft of `C139_renamed` differ in names only -/
theorem renamed_relabels (nm nm' : String) (pos : Option V3) (ops : List PlaneOp) (units : Option (Option String))
    (ρ : String → String) (hρ : Function.Injective ρ) (h0 : ρ "" = "") (p p' : Plane)
    (hp : p = { built nm pos ops with units }) (hp' : p' = { built nm' pos (ops.map (PlaneOp.renameWings ρ)) with units }) : Relabels p p' := by
  have hn : PlaneNamed ρ (built nm pos ops) (built nm' pos (ops.map (PlaneOp.renameWings ρ))) :=
    PlaneNamed.runOps hρ h0 ops ⟨.nil, rfl, rfl, rfl, rfl, rfl, rfl, rfl⟩
  have hh : PlaneNamed ρ p p' := by
    rw [hp, hp']
    exact { hn with units := rfl }
  exact hh.relabels

/-- **C139**. The aircraft `p'` is made by the calls that make `p`, with every name of a wing replaced by another one, both where the wing is
added and where another wing is connected to it (different names by different names, and the empty name, which stands for the aircraft
itself, kept).  A `MachUp` object can be constructed for `p'` iff it can be for `p`.  Its sections are those of `p`, in the same order (with
other names), and so are the reference area, every sequence of solves (with or without propellers) and the results of the derivative
methods. -/
theorem C139_renamed (table : String → ℝ → ℝ) (mem : String → ℕ → ℕ → Option ℝ) (simps : List ℝ → List ℝ → ℝ) (fuel : ℕ)
    (nm nm' : String) (pos : Option V3) (ops : List PlaneOp) (units : Option (Option String))
    (ρ : String → String) (hρ : Function.Injective ρ) (h0 : ρ "" = "") (p p' : Plane)
    (hp : p = { built nm pos ops with units }) (hp' : p' = { built nm' pos (ops.map (PlaneOp.renameWings ρ)) with units }) :
    ((∃ o, openMachUp table mem p = .ok o) ↔ ∃ o', openMachUp table mem p' = .ok o') ∧
    (∀ g g' : Grid, mkGrid p true = .ok g → mkGrid p' true = .ok g' →
      List.Forall₂ (fun s s' => s' = { s with name := s'.name }) g.data g'.data ∧ g'.refArea = g.refArea) ∧
    ∀ o o' : Analyser, openMachUp table mem p = .ok o → openMachUp table mem p' = .ok o' →
      ∃ σ : Fin (sectionsOf o.wing) ≃ Fin (sectionsOf o'.wing), (∀ i, (σ i).val = i.val) ∧
      (∀ (bad : _) (bad' : _) (calls : List (AeroDict (Fin (sectionsOf o.wing)) × Option CtrlDict × Option PropDict)),
        (∀ c ∈ calls, c.1.truthy = true) →
        List.Forall₂ (Outcome fun T T' => T' = T)
          (solveSeq (o.fresh p simps fuel bad none none) (calls.map fun c => ⟨some c.1, c.2.1, c.2.2⟩))
          (solveSeq (o'.fresh p' simps fuel bad' none none) (calls.map fun c => ⟨some (c.1.reindex σ), c.2.1, c.2.2⟩))) ∧
      ∀ (bad : _) (bad' : _) (a : AeroDict (Fin (sectionsOf o.wing))) (c : Option CtrlDict) (ps : Option PropDict),
        a.Vmag.isSome → a.rho.isSome →
        let x := o.fresh p simps fuel bad (some a) c
        let x' := o'.fresh p' simps fuel bad' (some (a.reindex σ)) c
        (derivatives ps none x').1 = (derivatives ps none x).1 ∧
        (stabilityDerivatives ps x').1 = (stabilityDerivatives ps x).1 ∧
        (controlDerivatives ps x').1 = (controlDerivatives ps x).1 ∧
        (dampingDerivatives ps x').1 = (dampingDerivatives ps x).1 := by
  have h := renamed_relabels nm nm' pos ops units ρ hρ h0 p p' hp hp'
  clear hp hp'
  refine ⟨open_relabel h, fun g g' hg hg' => ?_, fun o o' ho ho' => solves_relabel simps fuel h ho ho'⟩
  obtain ⟨h1, -, h3⟩ := alike_grids h.segs hg hg'
  exact ⟨h1, h3⟩

-- C139: the names of the main wing and the winglets of the aircraft `demo` exchanged
example : ∃ (ops : List PlaneOp) (ρ : String → String), demo = built "demo" none ops ∧ Function.Injective ρ ∧ ρ "" = "" ∧ ρ "Main" = "Winglet" ∧
    (∃ d, (ops.map (PlaneOp.renameWings ρ))[1]? = some (.addWing "Main" (some "Winglet") "tip" "both" d)) ∧ ∃ g, mkGrid demo true = .ok g := by
  refine ⟨_, Equiv.swap "Main" "Winglet", rfl, Equiv.injective _, by decide, by decide, ⟨_, rfl⟩, demo_grid true⟩

end Verif
