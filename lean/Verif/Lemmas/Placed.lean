import Verif.Lemmas.Halves
import Verif.Spec.Placed

/-! # Aircraft in which one wing has been put in its place in another way -/

namespace Verif
open V3

/-- wings with the same sides and related segments -/
inductive WingRel (R : Seg → Seg → Prop) : Wing → Wing → Prop
  | both {l r l' r' : Seg} (hl : R l l') (hr : R r r') : WingRel R (.both l r) (.both l' r')
  | onlyLeft {l l' : Seg} (hl : R l l') : WingRel R (.onlyLeft l) (.onlyLeft l')
  | onlyRight {r r' : Seg} (hr : R r r') : WingRel R (.onlyRight r) (.onlyRight r')

theorem WingRel.mono {R R' : Seg → Seg → Prop} {W W' : Wing} (h : WingRel R W W')
    (hR : ∀ s s', s ∈ W.segments → s' ∈ W'.segments → R s s' → R' s s') : WingRel R' W W' := by
  cases h with
  | both hl hr => exact .both (hR _ _ (by simp [Wing.segments]) (by simp [Wing.segments]) hl) (hR _ _ (by simp [Wing.segments]) (by simp [Wing.segments]) hr)
  | onlyLeft hl => exact .onlyLeft (hR _ _ (by simp [Wing.segments]) (by simp [Wing.segments]) hl)
  | onlyRight hr => exact .onlyRight (hR _ _ (by simp [Wing.segments]) (by simp [Wing.segments]) hr)

theorem WingRel.refl {R : Seg → Seg → Prop} (hR : ∀ s, R s s) (W : Wing) : WingRel R W W := by
  cases W with
  | both l r => exact .both (hR l) (hR r)
  | onlyLeft l => exact .onlyLeft (hR l)
  | onlyRight r => exact .onlyRight (hR r)

theorem WingRel.map {R R' : Seg → Seg → Prop} {W W' : Wing} (h : WingRel R W W') {f f' : Seg → Seg} (hf : ∀ s s', R s s' → R' (f s) (f' s')) :
    WingRel R' (W.mapSegs f) (W'.mapSegs f') := by
  cases h with
  | both hl hr => exact .both (hf _ _ hl) (hf _ _ hr)
  | onlyLeft hl => exact .onlyLeft (hf _ _ hl)
  | onlyRight hr => exact .onlyRight (hf _ _ hr)

theorem WingRel.left {R : Seg → Seg → Prop} {W W' : Wing} (h : WingRel R W W') :
    (W.leftSeg = none ∧ W'.leftSeg = none) ∨ ∃ s s', W.leftSeg = some s ∧ W'.leftSeg = some s' ∧ R s s' := by
  cases h with
  | both hl hr => exact .inr ⟨_, _, rfl, rfl, hl⟩
  | onlyLeft hl => exact .inr ⟨_, _, rfl, rfl, hl⟩
  | onlyRight hr => exact .inl ⟨rfl, rfl⟩

theorem WingRel.right {R : Seg → Seg → Prop} {W W' : Wing} (h : WingRel R W W') :
    (W.rightSeg = none ∧ W'.rightSeg = none) ∨ ∃ s s', W.rightSeg = some s ∧ W'.rightSeg = some s' ∧ R s s' := by
  cases h with
  | both hl hr => exact .inr ⟨_, _, rfl, rfl, hr⟩
  | onlyLeft hl => exact .inl ⟨rfl, rfl⟩
  | onlyRight hr => exact .inr ⟨_, _, rfl, rfl, hr⟩

/-- the same segment as far as its place is concerned -/
structure SegGeo (s s' : Seg) : Prop where
  side : s'.side = s.side
  parent : s'.parent = s.parent
  connectAt : s'.connectAt = s.connectAt
  dpos : s'.dpos = s.dpos
  yoffset : s'.yoffset = s.yoffset
  span : s'.span = s.span
  sweep : s'.sweep = s.sweep
  dihedral : s'.dihedral = s.dihedral

theorem SegGeo.refl (s : Seg) : SegGeo s s := ⟨rfl, rfl, rfl, rfl, rfl, rfl, rfl, rfl⟩

theorem SegGeo.tipOffset {s s' : Seg} (h : SegGeo s s') (t : TipAt) : s'.tipOffset t = s.tipOffset t := by
  unfold Seg.tipOffset
  rw [h.side, h.dpos, h.yoffset, h.span, h.sweep, h.dihedral]

theorem segPos_self {p : Plane} {s : Seg} {t' : TipAt} (hc : connTarget p s = .ok (some (s, t'))) : ∀ (f : ℕ) (t : TipAt),
    segPos p f s t = .error .recursion := by
  intro f
  induction f with
  | zero => intro t; rfl
  | succ f ihf => intro t; rw [segPos_succ, hc]; simp only [ihf]

/-- If the wings of two aircraft are described alike or known to be in the same places, they are all in the same places. -/
theorem same_places {p p' : Plane} (hp : PlaneInv p) (hp' : PlaneInv p') (hpos : p'.position = p.position)
    (h : ∀ (id : ℕ) (W : Wing), p.heap[id]? = some W → ∃ W', p'.heap[id]? = some W' ∧
      WingRel (fun s s' => SegGeo s s' ∨ ∀ t, p'.segPosition s' t = p.segPosition s t) W W') :
    ∀ (b : ℕ) (W W' : Wing), p.heap[b]? = some W → p'.heap[b]? = some W' → WingRel (fun s s' => ∀ t, p'.segPosition s' t = p.segPosition s t) W W' := by
  intro b
  induction b using Nat.strong_induction_on with
  | _ b ih =>
    intro W W' hb hb'
    obtain ⟨W1, e1, hW⟩ := h b W hb
    rw [hb'] at e1
    cases e1
    refine hW.mono fun s s' hs hs' hss => ?_
    rcases hss with hg | hss
    swap
    · exact hss
    intro t
    have unf := And.intro (segPosition_succ hp' hb' hs' t) (segPosition_succ hp hb hs t)
    cases hpar : s.parent with
    | none =>
      have c1 : connTarget p s = .ok none := by unfold connTarget; rw [hpar]
      have c2 : connTarget p' s' = .ok none := by unfold connTarget; rw [hg.parent, hpar]
      rw [unf.1, unf.2, hg.tipOffset, c1, c2]
      simp only [basePos, hg.parent, hpar]
    | plane =>
      have c1 : connTarget p s = .ok none := by unfold connTarget; rw [hpar]
      have c2 : connTarget p' s' = .ok none := by unfold connTarget; rw [hg.parent, hpar]
      rw [unf.1, unf.2, hg.tipOffset, c1, c2]
      simp only [basePos, hg.parent, hpar, Plane.getPosition, hpos]
    | wing id =>
      have hle := (hp.wing b W hb).parent_le s hs id hpar
      have hlt : id < p.heap.length := by have := mem_heap_lt hb; omega
      obtain ⟨V, hV⟩ : ∃ V, p.heap[id]? = some V := ⟨_, List.getElem?_eq_getElem hlt⟩
      obtain ⟨V', hV', hVV⟩ := h id V hV
      have key : ∀ (q q' : Seg) (u : TipAt), connTarget p s = .ok (some (q, u)) → connTarget p' s' = .ok (some (q', u)) →
          (id < b → p'.segPosition q' u = p.segPosition q u) →
          p'.segPosition s' t = p.segPosition s t := by
        intro q q' u c1 c2 hq
        rw [unf.1, unf.2, hg.tipOffset]
        rcases Nat.lt_or_ge id b with hlt | hge
        · rw [c1, c2]
          simp only
          rw [hq hlt]
        · have hid : id = b := by omega
          subst hid
          have f1 := connTarget_self hp hb hs hpar c1
          have f2 := connTarget_self hp' hb' hs' (by rw [hg.parent, hpar]) c2
          subst f1 f2
          rw [c1, c2]
          simp only
          unfold Plane.segPosition
          rw [segPos_self c1, segPos_self c2]
      have t1 : connTarget p s = match TipAt.ofStr s.connectAt with
          | .error e => .error e
          | .ok .leftTip => match V.leftSeg with
            | some q => .ok (some (q, .leftTip))
            | none => .error .attribute
          | .ok .rightTip => match V.rightSeg with
            | some q => .ok (some (q, .rightTip))
            | none => .error .attribute := by
        unfold connTarget; rw [hpar]; simp only [hV]; rfl
      have t2 : connTarget p' s' = match TipAt.ofStr s.connectAt with
          | .error e => .error e
          | .ok .leftTip => match V'.leftSeg with
            | some q => .ok (some (q, .leftTip))
            | none => .error .attribute
          | .ok .rightTip => match V'.rightSeg with
            | some q => .ok (some (q, .rightTip))
            | none => .error .attribute := by
        unfold connTarget; rw [hg.parent, hpar]; simp only [hV', hg.connectAt]; rfl
      cases ho : TipAt.ofStr s.connectAt with
      | error e => rw [ho] at t1 t2; simp only at t1 t2; rw [unf.1, unf.2, t1, t2]
      | ok u =>
        rw [ho] at t1 t2
        cases u with
        | leftTip =>
          simp only at t1 t2
          rcases hVV.left with ⟨l1, l2⟩ | ⟨q, q', l1, l2, -⟩
          · rw [l1] at t1; rw [l2] at t2; rw [unf.1, unf.2, t1, t2]
          · rw [l1] at t1; rw [l2] at t2
            refine key q q' .leftTip t1 t2 fun hlt => ?_
            rcases (ih id hlt V V' hV hV').left with ⟨m1, -⟩ | ⟨a, a', m1, m2, hq⟩
            · rw [l1] at m1; cases m1
            · rw [l1] at m1; rw [l2] at m2; cases m1; cases m2; exact hq _
        | rightTip =>
          simp only at t1 t2
          rcases hVV.right with ⟨l1, l2⟩ | ⟨q, q', l1, l2, -⟩
          · rw [l1] at t1; rw [l2] at t2; rw [unf.1, unf.2, t1, t2]
          · rw [l1] at t1; rw [l2] at t2
            refine key q q' .rightTip t1 t2 fun hlt => ?_
            rcases (ih id hlt V V' hV hV').right with ⟨m1, -⟩ | ⟨a, a', m1, m2, hq⟩
            · rw [l1] at m1; cases m1
            · rw [l1] at m1; rw [l2] at m2; cases m1; cases m2; exact hq _

/-! ### later calls do not move a wing -/

/-- every wing object of `p` is still in its place in `r` -/
structure Later (p r : Plane) : Prop where
  position : r.position = p.position
  heap : ∀ (id : ℕ) (W : Wing), p.heap[id]? = some W → ∃ W', r.heap[id]? = some W' ∧ WingRel SegGeo W W'

theorem Later.refl (p : Plane) : Later p p := ⟨rfl, fun _ W h => ⟨W, h, WingRel.refl SegGeo.refl W⟩⟩

theorem later_modify {p r : Plane} (h : Later p r) (i : ℕ) {f : Seg → Seg} (hf : ∀ s, SegGeo s (f s)) :
    Later p { r with heap := r.heap.modify i (·.mapSegs f) } := by
  refine ⟨h.position, fun id W e => ?_⟩
  obtain ⟨W', e1, e2⟩ := h.heap id W e
  by_cases hi : i = id
  · subst hi
    refine ⟨W'.mapSegs f, by simp [List.getElem?_modify, e1], ?_⟩
    have : WingRel SegGeo (W.mapSegs id) (W'.mapSegs f) := e2.map fun s s' hs =>
      ⟨(hf s').side.trans hs.side, (hf s').parent.trans hs.parent, (hf s').connectAt.trans hs.connectAt, (hf s').dpos.trans hs.dpos,
        (hf s').yoffset.trans hs.yoffset, (hf s').span.trans hs.span, (hf s').sweep.trans hs.sweep, (hf s').dihedral.trans hs.dihedral⟩
    have hid : W.mapSegs id = W := by cases W <;> rfl
    rwa [hid] at this
  · exact ⟨W', by simp [List.getElem?_modify, hi, e1], e2⟩

theorem geo_setAirfoil (e : String) (a : Airfoil) (s : Seg) : SegGeo s (s.setAirfoil e a) := by
  unfold Seg.setAirfoil
  split_ifs <;> exact ⟨rfl, rfl, rfl, rfl, rfl, rfl, rfl, rfl⟩

theorem Later.run {p r : Plane} (h : Later p r) (op : PlaneOp) : Later p (op.run r) := by
  have app : ∀ (Z : Wing) (ws : List (String × ℕ)), Later p { r with heap := r.heap ++ [Z], wings := ws } := by
    intro Z ws
    refine ⟨h.position, fun id W e => ?_⟩
    obtain ⟨W', e1, e2⟩ := h.heap id W e
    exact ⟨W', by rw [List.getElem?_append_left (mem_heap_lt e1)]; exact e1, e2⟩
  cases op with
  | addWing nm parent location side d =>
    simp only [PlaneOp.run, addWing_eq]
    cases mkWing nm side d with
    | error e => exact h
    | ok W =>
      simp only
      cases targetOf (dictSet r.wings nm r.heap.length) parent with
      | error e => exact app _ _
      | ok t => exact app _ _
  | airfoil id nm e q =>
    simp only [PlaneOp.run, Plane.wingAirfoil]
    cases mkAirfoil nm q with
    | error er => exact h
    | ok a => exact later_modify h id (geo_setAirfoil e a)
  | controlSurface id q =>
    simp only [PlaneOp.run, Plane.wingCtrl]
    cases mkCtrlSurf q with
    | error er => exact h
    | ok a => exact later_modify h id fun s => ⟨rfl, rfl, rfl, rfl, rfl, rfl, rfl, rfl⟩
  | addProp name d => exact ⟨h.position, h.heap⟩
  | propAirfoil name af props =>
    simp only [PlaneOp.run, Plane.propAirfoil]
    cases mkAirfoil af props with
    | error er => exact h
    | ok a =>
      simp only
      cases dictGet r.props name with
      | none => exact h
      | some q => exact ⟨h.position, h.heap⟩
  | cgLocation a b c => exact ⟨h.position, h.heap⟩
  | setRefLengths a b => exact ⟨h.position, h.heap⟩

theorem Later.runOps {p : Plane} (ops : List PlaneOp) : ∀ {r : Plane}, Later p r → Later p (runOps r ops) := by
  induction ops with
  | nil => intro r h; exact h
  | cons op t ih => intro r h; exact ih (h.run op)

theorem Later.ends {p r : Plane} (hp : PlaneInv p) (hr : PlaneInv r) (h : Later p r) {N : ℕ} {W W' : Wing}
    (e : p.heap[N]? = some W) (e' : r.heap[N]? = some W') : WingRel (fun s s' => ∀ t, r.segPosition s' t = p.segPosition s t) W W' :=
  same_places hp hr h.position (fun id W hW => let ⟨W', h1, h2⟩ := h.heap id W hW; ⟨W', h1, h2.mono fun _ _ _ _ h => .inl h⟩) N W W' e e'

/-! ### the same calls after a wing has been added in two ways -/

/-- the same segment, perhaps put in its place in another way -/
def SegMoved (s s' : Seg) : Prop :=
  s' = { s with parent := s'.parent, connectAt := s'.connectAt, dpos := s'.dpos, yoffset := s'.yoffset }

/-- the same aircraft, except that wing object `N` has been put in its place in another way -/
structure PlacedAt (N : ℕ) (p p' : Plane) : Prop where
  heap : List.Forall₂ (WingRel SegMoved) p.heap p'.heap
  others : ∀ id : ℕ, id ≠ N → p'.heap[id]? = p.heap[id]?
  wings : p'.wings = p.wings
  props : p'.props = p.props
  cg : p'.cg = p.cg
  position : p'.position = p.position
  latRef : p'.latRef = p.latRef
  longRef : p'.longRef = p.longRef
  units : p'.units = p.units

theorem placedAt_modify {N : ℕ} {p p' : Plane} (h : PlacedAt N p p') (i : ℕ) {f : Seg → Seg}
    (hf : ∀ s s', SegMoved s s' → SegMoved (f s) (f s')) :
    PlacedAt N { p with heap := p.heap.modify i (·.mapSegs f) } { p' with heap := p'.heap.modify i (·.mapSegs f) } := by
  refine { h with heap := ?_, others := fun id hid => by simp only [List.getElem?_modify, h.others id hid] }
  have hh := h.heap
  generalize p.heap = l at hh
  generalize p'.heap = l' at hh
  clear h
  simp only
  induction hh generalizing i with
  | nil => simp
  | cons h1 h2 ih =>
    cases i with
    | zero => simpa using ⟨h1.map hf, h2⟩
    | succ i => simpa using ⟨h1, ih i⟩

theorem PlacedAt.run {N : ℕ} {p p' : Plane} (h : PlacedAt N p p') (op : PlaneOp) : PlacedAt N (op.run p) (op.run p') := by
  have hlen := h.heap.length_eq
  have app : ∀ (Z : Wing) (ws : List (String × ℕ)),
      PlacedAt N { p with heap := p.heap ++ [Z], wings := ws } { p' with heap := p'.heap ++ [Z], wings := ws } := by
    intro Z ws
    refine { h with heap := List.rel_append h.heap (.cons (WingRel.refl (R := SegMoved) (fun s => rfl) Z) .nil), wings := rfl, others := fun id hid => ?_ }
    simp only [List.getElem?_append, hlen, h.others id hid]
  cases op with
  | addWing nm parent location side d =>
    simp only [PlaneOp.run, addWing_eq]
    cases mkWing nm side d with
    | error e => exact h
    | ok W =>
      simp only [h.wings, ← hlen]
      cases targetOf (dictSet p.wings nm p.heap.length) parent with
      | error e => exact app _ _
      | ok t => exact app _ _
  | airfoil id nm e q =>
    simp only [PlaneOp.run, Plane.wingAirfoil]
    cases mkAirfoil nm q with
    | error er => exact h
    | ok a =>
      refine placedAt_modify h id fun s s' hs => ?_
      unfold SegMoved at hs ⊢
      rw [hs]
      simp only [Seg.setAirfoil]
      split_ifs <;> rfl
  | controlSurface id q =>
    simp only [PlaneOp.run, Plane.wingCtrl]
    cases mkCtrlSurf q with
    | error er => exact h
    | ok a =>
      refine placedAt_modify h id fun s s' hs => ?_
      unfold SegMoved at hs ⊢
      rw [hs]
  | addProp name d => exact { h with props := by simp only [PlaneOp.run, Plane.addProp, h.props] }
  | propAirfoil name af props =>
    simp only [PlaneOp.run, Plane.propAirfoil]
    cases mkAirfoil af props with
    | error er => exact h
    | ok a =>
      simp only [h.props]
      cases dictGet p.props name with
      | none => exact h
      | some q => exact { h with props := rfl }
  | cgLocation a b c => exact { h with cg := by simp only [PlaneOp.run, Plane.cgLocation, h.cg] }
  | setRefLengths a b => exact { h with latRef := rfl, longRef := rfl }

theorem PlacedAt.runOps {N : ℕ} (ops : List PlaneOp) : ∀ {p p' : Plane}, PlacedAt N p p' → PlacedAt N (runOps p ops) (runOps p' ops) := by
  induction ops with
  | nil => intro p p' h; exact h
  | cons op t ih => intro p p' h; exact ih (h.run op)

/-- the same segment in the same place -/
def SegStays (p p' : Plane) (s s' : Seg) : Prop := SegMoved s s' ∧ ∀ t, p'.segPosition s' t = p.segPosition s t

theorem segData_stays {p p' : Plane} {s s' : Seg} (h : SegStays p p' s s') (c : Bool) : segData p' c s' = segData p c s := by
  obtain ⟨hss, hpos⟩ := h
  unfold segData
  rw [hpos, hpos]
  have f1 : s'.n = s.n := by rw [hss]
  have f2 : s'.csSpan = s.csSpan := by rw [hss]; rfl
  have f3 : s'.flapChord = s.flapChord := by rw [hss]; rfl
  have f4 : s'.covers = s.covers := by rw [hss]; rfl
  have f5 : segSection c s' = segSection c s := by funext l r i; rw [hss]; rfl
  rw [f1, f2, f3, f4, f5]

theorem placedAt_get {l l' : List Wing} {R : Seg → Seg → Prop} (h : List.Forall₂ (WingRel R) l l') (i : ℕ) :
    (l[i]? = none ∧ l'[i]? = none) ∨ ∃ W W', l[i]? = some W ∧ l'[i]? = some W' ∧ WingRel R W W' := by
  induction h generalizing i with
  | nil => simp
  | cons h1 _ ih =>
    cases i with
    | zero => exact .inr ⟨_, _, rfl, rfl, h1⟩
    | succ i => simpa using ih i

/-- the two aircraft are the same to `MachUp` -/
structure SameCraft (p p' : Plane) : Prop where
  segs : List.Forall₂ (SegStays p p') p.segments p'.segments
  sections : p'.numSections = p.numSections
  wings : p'.wings = p.wings
  props : p'.props = p.props
  cg : p'.cg = p.cg
  latRef : p'.latRef = p.latRef
  longRef : p'.longRef = p.longRef
  units : p'.units = p.units

theorem PlacedAt.same {N : ℕ} {p p' : Plane} (h : PlacedAt N p p') (hp : PlaneInv p) (hp' : PlaneInv p')
    (hN : ∀ W W', p.heap[N]? = some W → p'.heap[N]? = some W' → WingRel (fun s s' => ∀ t, p'.segPosition s' t = p.segPosition s t) W W') :
    SameCraft p p' := by
  have hpos := same_places hp hp' h.position (fun id W hW => by
    rcases placedAt_get h.heap id with ⟨g1, -⟩ | ⟨V, V', g1, g2, hV⟩
    · rw [hW] at g1; cases g1
    rw [hW] at g1
    cases g1
    by_cases hid : id = N
    · subst hid
      exact ⟨V', g2, (hN _ _ hW g2).mono fun _ _ _ _ h => .inr h⟩
    · refine ⟨W, by rw [h.others id hid, hW], WingRel.refl (fun s => .inl (SegGeo.refl s)) W⟩)
  refine ⟨?_, ?_, h.wings, h.props, h.cg, h.latRef, h.longRef, h.units⟩
  · rw [segments_listed, segments_listed, h.wings]
    generalize p.wings = ws
    induction ws with
    | nil => exact .nil
    | cons kv t ih =>
      rw [List.flatMap_cons, List.flatMap_cons]
      refine List.rel_append ?_ ih
      rcases placedAt_get h.heap kv.2 with ⟨g1, g2⟩ | ⟨W, W', g1, g2, hW⟩
      · simp only [g1, g2]; exact .nil
      · simp only [g1, g2, Option.map_some, Option.getD_some]
        have hq := hpos kv.2 W W' g1 g2
        cases hW with
        | both hl hr =>
          cases hq with
          | both ql qr => exact .cons ⟨hl, ql⟩ (.cons ⟨hr, qr⟩ .nil)
        | onlyLeft hl => cases hq with | onlyLeft ql => exact .cons ⟨hl, ql⟩ .nil
        | onlyRight hr => cases hq with | onlyRight qr => exact .cons ⟨hr, qr⟩ .nil
  · unfold Plane.numSections Plane.wingList
    rw [h.wings]
    generalize p.wings = ws
    generalize 0 = k
    induction ws generalizing k with
    | nil => rfl
    | cons kv t ih =>
      rw [List.filterMap_cons, List.filterMap_cons]
      rcases placedAt_get h.heap kv.2 with ⟨g1, g2⟩ | ⟨W, W', g1, g2, hW⟩
      · simp only [g1, g2]; exact ih k
      · simp only [g1, g2, List.foldl_cons]
        have e : W'.numSections = W.numSections := by
          cases hW with
          | both hl hr => simp only [Wing.numSections]; rw [hl, hr]
          | onlyLeft hl => simp only [Wing.numSections]; rw [hl]
          | onlyRight hr => simp only [Wing.numSections]; rw [hr]
        rw [e]
        exact ih _

theorem SameCraft.grid {p p' : Plane} (h : SameCraft p p') (c : Bool) : mkGrid p' c = mkGrid p c := by
  unfold mkGrid
  rw [h.sections]
  have key : ∀ (a b : List Seg), List.Forall₂ (SegStays p p') a b → ∀ st, b.foldlM (gridStep p' c) st = a.foldlM (gridStep p c) st := by
    intro a b hab
    induction hab with
    | nil => intro st; rfl
    | @cons s s' a b h1 _ ih =>
      intro st
      rw [List.foldlM_cons, List.foldlM_cons]
      have f1 : s'.n = s.n := by rw [h1.1]
      have f2 : s'.isMain = s.isMain := by rw [h1.1]
      have e : gridStep p' c st s' = gridStep p c st s := by
        unfold gridStep
        rw [segData_stays h1, f1, f2]
      rw [e]
      cases gridStep p c st s with
      | error x => rfl
      | ok st' => exact ih st'
  rw [key _ _ h.segs]

theorem SameCraft.refs {p p' : Plane} (h : SameCraft p p') (Sw : ℝ) : refLengths p' Sw = refLengths p Sw := by
  have hl : inferLat p'.segments = inferLat p.segments := by
    have hs := h.segs
    unfold inferLat
    generalize (0 : ℝ) = m
    generalize p.segments = a at hs ⊢
    generalize p'.segments = b at hs ⊢
    induction hs generalizing m with
    | nil => rfl
    | @cons s s' _ _ h1 _ ih =>
      have f : s'.span = s.span := by rw [h1.1]
      simp only [List.foldl_cons, f]
      exact ih _
  unfold refLengths
  rw [h.latRef, h.longRef, hl]

theorem SameCraft.open {p p' : Plane} (h : SameCraft p p') (table : String → ℝ → ℝ) (mem : String → ℕ → ℕ → Option ℝ) :
    openMachUp table mem p' = openMachUp table mem p := by
  have hw : mkWingPart p' = mkWingPart p := by
    unfold mkWingPart
    rw [h.wings, h.grid]
    simp only [h.refs]
  have hu : p'.getUnits = p.getUnits := by unfold Plane.getUnits; rw [h.units]
  have hps : ∀ {ι : Type} (pts : Option (ι → V3)), openProps table mem p' pts = openProps table mem p pts := by
    intro ι pts
    unfold openProps
    rw [h.props, hu, h.cg]
  unfold openMachUp
  rw [hw, h.props]
  simp only [hps]

theorem SameCraft.backend {p p' : Plane} (h : SameCraft p p') (o : Analyser) (simps : List ℝ → List ℝ → ℝ) (fuel : ℕ) (bad : _) :
    o.backend p' simps fuel bad = o.backend p simps fuel bad := by
  unfold Analyser.backend
  rw [h.wings, h.props, h.cg]

end Verif
