import Verif.Spec.PlaneImage
import Verif.Lemmas.GridMirror
import Verif.Lemmas.ListImage

/-! Helper lemmas: the mirrored building calls give the mirrored grid. -/

namespace Verif
open V3

def Side.other : Side → Side
  | .left => .right
  | .right => .left

def TipAt.other : TipAt → TipAt
  | .leftTip => .rightTip
  | .rightTip => .leftTip

/-- `s'` is the mirror image of the segment `s` -/
structure SegMir (s s' : Seg) : Prop where
  side : s'.side = s.side.other
  parent : s'.parent = s.parent
  connect : (s.connectAt = "tip" ∧ s'.connectAt = "tip") ∨
    ∃ location, s.connectAt = s.side.str ++ "_" ++ location ∧ s'.connectAt = s'.side.str ++ "_" ++ location
  isMain : s'.isMain = s.isMain
  dpos : s'.dpos = mir s.dpos
  yoffset : s'.yoffset = s.yoffset
  span : s'.span = s.span
  rootChord : s'.rootChord = s.rootChord
  tipChord : s'.tipChord = s.tipChord
  sweep : s'.sweep = s.sweep
  dihedral : s'.dihedral = s.dihedral
  mount : s'.mount = s.mount
  washout : s'.washout = s.washout
  root : s'.root = s.root
  tip : s'.tip = s.tip
  cs : s'.cs = s.cs
  n : s'.n = s.n

inductive WingMir : Wing → Wing → Prop
  | both {l r l' r' : Seg} (hl : l.side = .left) (hr : r.side = .right) (h1 : SegMir l r') (h2 : SegMir r l') :
      WingMir (.both l r) (.both l' r')
  | left {l r' : Seg} (hl : l.side = .left) (h : SegMir l r') : WingMir (.onlyLeft l) (.onlyRight r')
  | right {r l' : Seg} (hr : r.side = .right) (h : SegMir r l') : WingMir (.onlyRight r) (.onlyLeft l')

structure PlaneMir (p p' : Plane) : Prop where
  heap : List.Forall₂ WingMir p.heap p'.heap
  wings : p'.wings = p.wings
  cg : p'.cg = mir p.cg
  position : p'.position = p.position.map mir

theorem mkSeg_mir (n n' : String) (side : Side) (d : WingDims) :
    SegMir (mkSeg n side d) (mkSeg n' side.other { d with position := d.position.map mir }) := by
  constructor <;> try rfl
  · exact .inl ⟨rfl, rfl⟩
  · simp only [mkSeg]
    cases d.position with
    | none => ext <;> simp
    | some v => rfl

theorem mkWing_mir (name side : String) (d : WingDims) :
    (∃ e, mkWing name side d = .error e ∧ mkWing name (mirSide side) { d with position := d.position.map mir } = .error e) ∨
    ∃ w w', mkWing name side d = .ok w ∧
      mkWing name (mirSide side) { d with position := d.position.map mir } = .ok w' ∧ WingMir w w' := by
  unfold mkWing mirSide
  by_cases h1 : side = "both"
  · subst h1
    exact .inr ⟨_, _, rfl, rfl, .both rfl rfl (mkSeg_mir _ _ .left d) (mkSeg_mir _ _ .right d)⟩
  by_cases h2 : side = "right"
  · subst h2
    exact .inr ⟨_, _, rfl, rfl, .right rfl (mkSeg_mir _ _ .right d)⟩
  by_cases h3 : side = "left"
  · subst h3
    exact .inr ⟨_, _, rfl, rfl, .left rfl (mkSeg_mir _ _ .left d)⟩
  · left
    simp [h1, h2, h3]

/-- a change of segments that respects mirror images -/
def RespectsMir (f : Seg → Seg) : Prop := (∀ s, (f s).side = s.side) ∧ ∀ s s', SegMir s s' → SegMir (f s) (f s')

theorem WingMir.mapSegs {f : Seg → Seg} (hf : RespectsMir f) {w w' : Wing} (h : WingMir w w') :
    WingMir (w.mapSegs f) (w'.mapSegs f) := by
  obtain ⟨h1, h2⟩ := hf
  cases h with
  | both hl hr a b => exact .both (by rw [h1, hl]) (by rw [h1, hr]) (h2 _ _ a) (h2 _ _ b)
  | left hl a => exact .left (by rw [h1, hl]) (h2 _ _ a)
  | right hr a => exact .right (by rw [h1, hr]) (h2 _ _ a)

theorem respects_connectTo (t : Parent) (loc : String) : RespectsMir (·.connectTo t loc) :=
  ⟨fun _ => rfl, fun s s' h => { h with parent := rfl, connect := .inr ⟨loc, rfl, rfl⟩ }⟩

theorem respects_cs (c : CtrlSurf) : RespectsMir (fun s => { s with cs := c }) :=
  ⟨fun _ => rfl, fun s s' h => { h with cs := rfl }⟩

theorem respects_setAirfoil (e : String) (a : Airfoil) : RespectsMir (·.setAirfoil e a) := by
  refine ⟨fun s => ?_, fun s s' h => ?_⟩
  · simp only [Seg.setAirfoil]; split_ifs <;> rfl
  · simp only [Seg.setAirfoil]
    split_ifs
    · exact { h with root := rfl, tip := rfl }
    · exact { h with root := rfl }
    · exact { h with tip := rfl }
    · exact h

theorem forall₂_modify {α β : Type*} {P : α → β → Prop} {f : α → α} {g : β → β} (hfg : ∀ a b, P a b → P (f a) (g b))
    {l : List α} {l' : List β} (h : List.Forall₂ P l l') : ∀ id, List.Forall₂ P (l.modify id f) (l'.modify id g) := by
  induction h with
  | nil => intro id; cases id <;> exact .nil
  | @cons a b l l' hab hl ih =>
    intro id
    cases id with
    | zero => exact .cons (hfg a b hab) hl
    | succ id => simpa using List.Forall₂.cons hab (ih id)

theorem PlaneMir.run {p p' : Plane} (h : PlaneMir p p') (op : PlaneOp) : PlaneMir (op.run p) (op.mirror.run p') := by
  have hlen := h.heap.length_eq
  cases op with
  | addWing name parent location side d =>
    simp only [PlaneOp.run, PlaneOp.mirror, addWing_eq]
    rcases mkWing_mir name side d with ⟨e, h1, h2⟩ | ⟨w, w', h1, h2, hw⟩
    · rw [h1, h2]; exact h
    · rw [h1, h2]
      simp only
      rw [h.wings, ← hlen]
      cases targetOf (dictSet p.wings name p.heap.length) parent with
      | error e =>
        exact { h with heap := List.rel_append h.heap (.cons hw .nil), wings := rfl }
      | ok t =>
        exact { h with heap := List.rel_append h.heap (.cons (hw.mapSegs (respects_connectTo t location)) .nil), wings := rfl }
  | airfoil id name e props =>
    simp only [PlaneOp.run, PlaneOp.mirror, Plane.wingAirfoil]
    cases mkAirfoil name props with
    | error er => exact h
    | ok a => exact { h with heap := forall₂_modify (fun _ _ hab => hab.mapSegs (respects_setAirfoil e a)) h.heap id }
  | controlSurface id props =>
    simp only [PlaneOp.run, PlaneOp.mirror, Plane.wingCtrl]
    cases mkCtrlSurf props with
    | error er => exact h
    | ok a => exact { h with heap := forall₂_modify (fun _ _ hab => hab.mapSegs (respects_cs a)) h.heap id }
  | addProp name d => exact { h with }
  | propAirfoil name af props =>
    simp only [PlaneOp.run, PlaneOp.mirror, Plane.propAirfoil]
    cases mkAirfoil af props with
    | error er => exact h
    | ok a =>
      simp only
      cases dictGet p.props name <;> cases dictGet p'.props name <;> exact { h with }
  | cgLocation x y z =>
    refine { h with cg := ?_ }
    simp only [PlaneOp.run, PlaneOp.mirror, Plane.cgLocation, h.cg]
    ext
    · rfl
    · simp only [mir_y]
      cases y with
      | none => rfl
      | some y =>
        simp only [Option.map_some, Plane.setCoord, neg_eq_zero]
        split_ifs <;> rfl
    · rfl
  | setRefLengths a b => exact { h with }

theorem PlaneMir.runOps (ops : List PlaneOp) : ∀ {p p' : Plane}, PlaneMir p p' →
    PlaneMir (runOps p ops) (runOps p' (ops.map PlaneOp.mirror)) := by
  induction ops with
  | nil => intro p p' h; exact h
  | cons op t ih =>
    intro p p' h
    exact ih (h.run op)

theorem built_mirror (nm : String) (pos : Option V3) (ops : List PlaneOp) :
    PlaneMir (built nm pos ops) (built nm (pos.map mir) (ops.map PlaneOp.mirror)) :=
  PlaneMir.runOps ops ⟨.nil, rfl, by simp only [newPlane]; ext <;> simp, rfl⟩

/-! ### positions -/

theorem SegMir.tipOffset {s s' : Seg} (h : SegMir s s') (t : TipAt) (v : V3) :
    addOff (s'.tipOffset t.other) (mir v) = mirPos (addOff (s.tipOffset t) v) := by
  simp only [Seg.tipOffset, h.side, h.dpos, h.span, h.sweep, h.dihedral, h.yoffset]
  by_cases hc : Real.cos (s.sweep * Real.pi / 180) = 0 <;> cases t <;> cases s.side <;>
    simp only [TipAt.other, Side.other, hc, if_true, if_false] <;>
    first
    | rfl
    | (simp only [addOff, mirPos, Except.ok.injEq]
       ext <;> simp <;> ring)

theorem heap_get {p p' : Plane} (h : PlaneMir p p') (id : ℕ) :
    (p.heap[id]? = none ∧ p'.heap[id]? = none) ∨ ∃ w w', p.heap[id]? = some w ∧ p'.heap[id]? = some w' ∧ WingMir w w' := by
  have hh := h.heap
  generalize p.heap = l at hh
  generalize p'.heap = l' at hh
  induction hh generalizing id with
  | nil => left; simp
  | cons hab _ ih =>
    cases id with
    | zero => right; exact ⟨_, _, rfl, rfl, hab⟩
    | succ id => simpa using ih id

theorem connTarget_mir {p p' : Plane} (h : PlaneMir p p') {s s' : Seg} (hs : SegMir s s') :
    (∃ e, connTarget p s = .error e ∧ connTarget p' s' = .error e) ∨
    (connTarget p s = .ok none ∧ connTarget p' s' = .ok none) ∨
    ∃ q q' t, connTarget p s = .ok (some (q, t)) ∧ connTarget p' s' = .ok (some (q', TipAt.other t)) ∧ SegMir q q' := by
  unfold connTarget
  rw [hs.parent]
  cases s.parent with
  | none => exact .inr (.inl ⟨rfl, rfl⟩)
  | plane => exact .inr (.inl ⟨rfl, rfl⟩)
  | wing id =>
    simp only
    rcases heap_get h id with ⟨h1, h2⟩ | ⟨w, w', h1, h2, hw⟩
    · rw [h1, h2]; exact .inl ⟨_, rfl, rfl⟩
    · rw [h1, h2]
      simp only
      rcases hs.connect with ⟨c1, c2⟩ | ⟨loc, c1, c2⟩
      · rw [c1, c2]
        have : TipAt.ofStr "tip" = .error .runtime := rfl
        rw [this]
        exact .inl ⟨_, rfl, rfl⟩
      · rw [c1, c2, hs.side]
        cases s.side with
        | left =>
          simp only [Side.other, Side.str, ofStr_left, ofStr_right]
          by_cases hloc : loc = "tip"
          · simp only [hloc, if_true]
            cases hw with
            | both _ _ a b => exact .inr (.inr ⟨_, _, .leftTip, rfl, rfl, a⟩)
            | left _ a => exact .inr (.inr ⟨_, _, .leftTip, rfl, rfl, a⟩)
            | right _ a => exact .inl ⟨_, rfl, rfl⟩
          · simp only [hloc, if_false]; exact .inl ⟨_, rfl, rfl⟩
        | right =>
          simp only [Side.other, Side.str, ofStr_left, ofStr_right]
          by_cases hloc : loc = "tip"
          · simp only [hloc, if_true]
            cases hw with
            | both _ _ a b => exact .inr (.inr ⟨_, _, .rightTip, rfl, rfl, b⟩)
            | left _ a => exact .inl ⟨_, rfl, rfl⟩
            | right _ a => exact .inr (.inr ⟨_, _, .rightTip, rfl, rfl, a⟩)
          · simp only [hloc, if_false]; exact .inl ⟨_, rfl, rfl⟩

theorem segPos_mir {p p' : Plane} (h : PlaneMir p p') : ∀ (f : ℕ) {s s' : Seg} (_ : SegMir s s') (t : TipAt),
    segPos p' f s' t.other = mirPos (segPos p f s t) := by
  intro f
  induction f with
  | zero => intro s s' _ t; rfl
  | succ f ih =>
    intro s s' hs t
    have hbase : basePos p' s' = mir (basePos p s) := by
      unfold basePos
      rw [hs.parent]
      cases s.parent with
      | none => ext <;> simp
      | plane =>
        simp only [Plane.getPosition, h.position]
        cases p.position with
        | none => ext <;> simp
        | some v => rfl
      | wing id => ext <;> simp
    rw [segPos_succ, segPos_succ]
    rcases connTarget_mir h hs with ⟨e, h1, h2⟩ | ⟨h1, h2⟩ | ⟨q, q', t', h1, h2, hq⟩
    · rw [h1, h2]; rfl
    · rw [h1, h2]
      simp only
      rw [hbase, hs.tipOffset]
    · rw [h1, h2]
      simp only
      rw [ih hq t']
      cases segPos p f q t' with
      | error e => rfl
      | ok v => exact hs.tipOffset t v

/-! ### sections -/

theorem segSection_mir' {s s' : Seg} (h : SegMir s s') {L R : V3} (hd : nrm (R - L) ≠ 0)
    (hw : s.csSpan.2 - s.csSpan.1 ≠ 0) (c : Bool) {i : ℕ} (hi : i < s.n) :
    MirRel (segSection c s L R i).withIc2 (segSection c s' (mir R) (mir L) (s.n - 1 - i)).withIc2 := by
  cases hside : s.side with
  | right =>
    have ht : Twin { s' with parent := .none, dpos := s.dpos } { s with parent := .none } := by
      constructor <;> simp only
      · rw [h.side, hside]; rfl
      · exact hside
      · exact .inl trivial
      all_goals first | exact h.isMain | exact h.yoffset | exact h.span | exact h.rootChord | exact h.tipChord |
        exact h.sweep | exact h.dihedral | exact h.mount | exact h.washout | exact h.root | exact h.tip | exact h.cs |
        exact h.n
    exact segSection_mir ht hd hw c hi
  | left =>
    have ht : Twin { s with parent := .none } { s' with parent := .none, dpos := s.dpos } := by
      constructor <;> simp only
      · exact hside
      · rw [h.side, hside]; rfl
      · exact .inl trivial
      all_goals first | exact h.isMain.symm | exact h.yoffset.symm | exact h.span.symm | exact h.rootChord.symm |
        exact h.tipChord.symm | exact h.sweep.symm | exact h.dihedral.symm | exact h.mount.symm |
        exact h.washout.symm | exact h.root.symm | exact h.tip.symm | exact h.cs.symm | exact h.n.symm
    have hd' : nrm (mir L - mir R) ≠ 0 := by
      rw [← mir_sub, nrm_mir, ← nrm_neg, neg_sub]; exact hd
    have hw' : s'.csSpan.2 - s'.csSpan.1 ≠ 0 := by
      unfold Seg.csSpan at hw ⊢
      rw [hside] at hw
      rw [h.side, hside, h.cs]
      simp only [Side.other] at hw ⊢
      intro h0; apply hw; linarith
    have hi' : s.n - 1 - i < s'.n := by rw [h.n]; omega
    have : MirRel (segSection c s (mir (mir L)) (mir (mir R)) (s'.n - 1 - (s.n - 1 - i))).withIc2
        (segSection c s' (mir R) (mir L) (s.n - 1 - i)).withIc2 := (segSection_mir ht hd' hw' c hi').symm
    rw [mir_mir, mir_mir, h.n, show s.n - 1 - (s.n - 1 - i) = i by omega] at this
    exact this

theorem covers_mir {s s' : Seg} (h : SegMir s s') (x : ℝ) : s'.covers (1 - x) ↔ s.covers x := by
  rw [covers_iff, covers_iff, h.side, h.cs]
  cases s.side <;> simp [rootStation, Side.other]

theorem csSpan_mir {s s' : Seg} (h : SegMir s s') : s'.csSpan.2 - s'.csSpan.1 = s.csSpan.2 - s.csSpan.1 := by
  unfold Seg.csSpan
  rw [h.side, h.cs]
  cases s.side <;> simp only [Side.other] <;> ring

theorem flapChord_mir {s s' : Seg} (h : SegMir s s') (hw : s.csSpan.2 - s.csSpan.1 ≠ 0) (x : ℝ) :
    s'.flapChord (1 - x) = s.flapChord x := by
  rw [flapChord_root _ _ hw, flapChord_root _ _ (by rw [csSpan_mir h]; exact hw), h.side, h.cs]
  cases s.side <;> simp [rootStation, Side.other]

theorem ListImage.sum {α β : Type*} {P : α → β → Prop} {f : α → ℝ} {g : β → ℝ} (hfg : ∀ a b, P a b → g b = f a)
    {L : List α} {L' : List β} (h : ListImage P L L') : (L'.map g).sum = (L.map f).sum := by
  obtain ⟨M, h1, h2⟩ := h
  rw [← (h2.map g).sum_eq]
  clear h2
  induction h1 with
  | nil => rfl
  | cons hab _ ih => simp [hfg _ _ hab, ih]

/-- the sections of a mirrored segment -/
theorem segData_mir {p p' : Plane} (h : PlaneMir p p') {s s' : Seg} (hs : SegMir s s') (c : Bool) {v : List GridSec}
    (hv : segData p c s = .ok v) : ∃ v', segData p' c s' = .ok v' ∧
      ListImage MirRel (v.map GridSec.withIc2) (v'.map GridSec.withIc2) ∧ (v'.map (·.area)).sum = (v.map (·.area)).sum := by
  obtain ⟨L, R, hL, hR, hd, hw, hn, hf, rfl⟩ := segData_ok hv
  have hlen := h.heap.length_eq
  have hL' : p'.segPosition s' .rightTip = .ok (mir L) := by
    have := segPos_mir h (p.heap.length + 1) hs .leftTip
    unfold Plane.segPosition at hL ⊢
    rw [← hlen, show TipAt.rightTip = TipAt.leftTip.other from rfl, this, hL]
    rfl
  have hR' : p'.segPosition s' .leftTip = .ok (mir R) := by
    have := segPos_mir h (p.heap.length + 1) hs .rightTip
    unfold Plane.segPosition at hR ⊢
    rw [← hlen, show TipAt.leftTip = TipAt.rightTip.other from rfl, this, hR]
    rfl
  have hdata := segData_of (c := c) hR' hL' (by rw [← mir_sub, nrm_mir, ← nrm_neg, neg_sub]; exact hd)
    (by rw [csSpan_mir hs]; exact hw) (by rw [hs.n]; exact hn) (by
      intro i hi
      rw [hs.n] at hi ⊢
      have e : sCp c s.n i = 1 - sCp c s.n (s.n - 1 - i) := by
        have := sCp_flip c (show s.n - 1 - i < s.n by omega)
        rwa [show s.n - 1 - (s.n - 1 - i) = i by omega] at this
      rw [e, covers_mir hs, flapChord_mir hs hw]
      exact hf _ (by omega))
  have himg : ListImage MirRel (((List.range s.n).map (segSection c s L R)).map GridSec.withIc2)
      (((List.range s'.n).map (segSection c s' (mir R) (mir L))).map GridSec.withIc2) := by
    rw [List.map_map, List.map_map, hs.n]
    exact listImage_reverse fun i hi => segSection_mir' hs hd hw c hi
  refine ⟨_, hdata, himg, ?_⟩
  have := himg.sum (f := fun g => g.area) (g := fun g => g.area) (fun a b hab => by
    have := hab.image.area
    rw [mirSim_len] at this
    linarith)
  simpa [List.map_map, Function.comp_def, GridSec.withIc2] using this

theorem Side.other_other (s : Side) : s.other.other = s := by cases s <;> rfl

theorem SegMir.symm {s s' : Seg} (h : SegMir s s') : SegMir s' s where
  side := by rw [h.side, Side.other_other]
  parent := h.parent.symm
  connect := by
    rcases h.connect with ⟨a, b⟩ | ⟨loc, a, b⟩
    · exact .inl ⟨b, a⟩
    · exact .inr ⟨loc, b, a⟩
  isMain := h.isMain.symm
  dpos := by rw [h.dpos, mir_mir]
  yoffset := h.yoffset.symm
  span := h.span.symm
  rootChord := h.rootChord.symm
  tipChord := h.tipChord.symm
  sweep := h.sweep.symm
  dihedral := h.dihedral.symm
  mount := h.mount.symm
  washout := h.washout.symm
  root := h.root.symm
  tip := h.tip.symm
  cs := h.cs.symm
  n := h.n.symm

theorem WingMir.symm {w w' : Wing} (h : WingMir w w') : WingMir w' w := by
  cases h with
  | both hl hr a b => exact .both (by rw [b.side, hr]; rfl) (by rw [a.side, hl]; rfl) b.symm a.symm
  | left hl a => exact .right (by rw [a.side, hl]; rfl) a.symm
  | right hr a => exact .left (by rw [a.side, hr]; rfl) a.symm

theorem PlaneMir.symm {p p' : Plane} (h : PlaneMir p p') : PlaneMir p' p where
  heap := by
    have := h.heap
    generalize p.heap = l at this
    generalize p'.heap = l' at this
    induction this with
    | nil => exact .nil
    | cons hab _ ih => exact .cons hab.symm ih
  wings := h.wings.symm
  cg := by rw [h.cg, mir_mir]
  position := by
    rw [h.position]
    cases p.position <;> simp [mir_mir]

/-- grid of one wing and of its mirror image -/
theorem wing_mir {p p' : Plane} (h : PlaneMir p p') (c : Bool) {w w' : Wing} (hw : WingMir w w') {vs : List (List GridSec)}
    (hvs : List.Forall₂ (fun s v => segData p c s = .ok v) w.segments vs) :
    ∃ vs', List.Forall₂ (fun s v => segData p' c s = .ok v) w'.segments vs' ∧
      ListImage MirRel (vs.flatten.map GridSec.withIc2) (vs'.flatten.map GridSec.withIc2) ∧
      refOf w'.segments vs' = refOf w.segments vs := by
  cases hw with
  | @both l r l' r' hl hr a b =>
    cases hvs with
    | cons hv1 hvs =>
      cases hvs with
      | cons hv2 hvs =>
        cases hvs
        obtain ⟨v1, e1, i1, s1⟩ := segData_mir h a c hv1
        obtain ⟨v2, e2, i2, s2⟩ := segData_mir h b c hv2
        refine ⟨[v2, v1], .cons e2 (.cons e1 .nil), ?_, ?_⟩
        · simp only [List.flatten_cons, List.flatten_nil, List.append_nil, List.map_append]
          exact (i1.append i2).perm List.perm_append_comm
        · simp only [Wing.segments, refOf, a.isMain, b.isMain, s1, s2]
          ring
  | @left l r' hl a =>
    cases hvs with
    | cons hv1 hvs =>
      cases hvs
      obtain ⟨v1, e1, i1, s1⟩ := segData_mir h a c hv1
      refine ⟨[v1], .cons e1 .nil, by simpa using i1, ?_⟩
      simp only [Wing.segments, refOf, a.isMain, s1]
  | @right r l' hr a =>
    cases hvs with
    | cons hv1 hvs =>
      cases hvs
      obtain ⟨v1, e1, i1, s1⟩ := segData_mir h a c hv1
      refine ⟨[v1], .cons e1 .nil, by simpa using i1, ?_⟩
      simp only [Wing.segments, refOf, a.isMain, s1]

theorem refOf_append : ∀ {A B : List Seg} {vs ws : List (List GridSec)}, A.length = vs.length →
    refOf (A ++ B) (vs ++ ws) = refOf A vs + refOf B ws := by
  intro A
  induction A with
  | nil =>
    intro B vs ws h
    cases vs with
    | nil => simp [refOf]
    | cons _ _ => simp at h
  | cons s t ih =>
    intro B vs ws h
    cases vs with
    | nil => simp at h
    | cons v vs =>
      simp only [List.cons_append, refOf]
      rw [ih (by simpa using h)]
      ring

theorem wings_mir {p p' : Plane} (h : PlaneMir p p') (c : Bool) (ids : List ℕ) : ∀ {vs : List (List GridSec)},
    List.Forall₂ (fun s v => segData p c s = .ok v) ((ids.filterMap (p.heap[·]?)).flatMap Wing.segments) vs →
    ∃ vs', List.Forall₂ (fun s v => segData p' c s = .ok v) ((ids.filterMap (p'.heap[·]?)).flatMap Wing.segments) vs' ∧
      ListImage MirRel (vs.flatten.map GridSec.withIc2) (vs'.flatten.map GridSec.withIc2) ∧
      refOf ((ids.filterMap (p'.heap[·]?)).flatMap Wing.segments) vs' =
        refOf ((ids.filterMap (p.heap[·]?)).flatMap Wing.segments) vs := by
  induction ids with
  | nil =>
    intro vs hvs
    simp only [List.filterMap_nil, List.flatMap_nil] at hvs ⊢
    cases hvs
    exact ⟨[], .nil, .nil, rfl⟩
  | cons id t ih =>
    intro vs hvs
    rcases heap_get h id with ⟨h1, h2⟩ | ⟨w, w', h1, h2, hw⟩
    · rw [List.filterMap_cons_none h1] at hvs ⊢
      rw [List.filterMap_cons_none h2]
      exact ih hvs
    · rw [List.filterMap_cons_some h1, List.flatMap_cons] at hvs ⊢
      rw [List.filterMap_cons_some h2, List.flatMap_cons]
      have hA := List.forall₂_take w.segments.length hvs
      have hB := List.forall₂_drop w.segments.length hvs
      rw [List.take_left] at hA
      rw [List.drop_left] at hB
      obtain ⟨vA, a1, a2, a3⟩ := wing_mir h c hw hA
      obtain ⟨vB, b1, b2, b3⟩ := ih hB
      refine ⟨vA ++ vB, List.rel_append a1 b1, ?_, ?_⟩
      · have := a2.append b2
        rw [← List.map_append, ← List.map_append, ← List.flatten_append, ← List.flatten_append,
          List.take_append_drop] at this
        exact this
      · rw [refOf_append a1.length_eq, a3, b3]
        conv_rhs => rw [← List.take_append_drop w.segments.length vs]
        rw [refOf_append hA.length_eq]

end Verif
