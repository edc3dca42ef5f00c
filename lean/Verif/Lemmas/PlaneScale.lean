import Verif.Spec.PlaneImage
import Verif.Lemmas.GridGeom
import Verif.Lemmas.LLInputs

/-! Helper lemmas: an enlarged plane has the enlarged grid. -/

namespace Verif
open V3

noncomputable def Seg.enlarge (k : ℝ) (s : Seg) : Seg :=
  { s with dpos := k • s.dpos, yoffset := k * s.yoffset, span := k * s.span, rootChord := k * s.rootChord
           tipChord := k * s.tipChord }

noncomputable def Plane.enlarge (k : ℝ) (p : Plane) : Plane :=
  { p with heap := p.heap.map (·.mapSegs (Seg.enlarge k)), cg := k • p.cg, latRef := p.latRef.map (k * ·)
           longRef := p.longRef.map (k * ·), position := p.position.map (k • ·)
           props := p.props.map fun kv => (kv.1, kv.2.scale k) }

theorem mkSeg_enlarge (k : ℝ) (name : String) (side : Side) (d : WingDims) :
    mkSeg name side (d.enlarge k) = (mkSeg name side d).enlarge k := by
  cases hp : d.position <;> cases hy : d.yoffset <;> cases ht : d.tipChord <;>
    simp [mkSeg, WingDims.enlarge, Seg.enlarge, hp, hy, ht]

theorem mkWing_enlarge (k : ℝ) (name side : String) (d : WingDims) :
    mkWing name side (d.enlarge k) = (mkWing name side d).map (·.mapSegs (Seg.enlarge k)) := by
  unfold mkWing
  split_ifs <;> simp [Except.map, Wing.mapSegs, mkSeg_enlarge]

theorem mapSegs_mapSegs (f g : Seg → Seg) (w : Wing) : (w.mapSegs f).mapSegs g = w.mapSegs (g ∘ f) := by
  cases w <;> rfl

theorem setCoord_mul {k : ℝ} (hk : k ≠ 0) (old : ℝ) (new : Option ℝ) :
    Plane.setCoord (k * old) (new.map (k * ·)) = k * Plane.setCoord old new := by
  cases new with
  | none => rfl
  | some x =>
    simp only [Option.map_some, Plane.setCoord, mul_eq_zero, hk, false_or]
    split_ifs <;> rfl

theorem enlarge_modify (k : ℝ) (l : List Wing) (id : ℕ) (f : Seg → Seg)
    (hf : ∀ s, (f s).enlarge k = f (s.enlarge k)) :
    (l.modify id (·.mapSegs f)).map (·.mapSegs (Seg.enlarge k)) =
      (l.map (·.mapSegs (Seg.enlarge k))).modify id (·.mapSegs f) := by
  apply List.ext_getElem?
  intro i
  simp only [List.getElem?_map, List.getElem?_modify]
  cases l[i]? with
  | none => simp
  | some w =>
    by_cases h : id = i
    · subst h
      cases w <;> simp [Wing.mapSegs, hf]
    · simp [h]

theorem mkProp_enlarge (k : ℝ) (name : String) (d : PropDims) : mkProp name (d.enlarge k) = (mkProp name d).scale k := by
  cases h1 : d.position <;> cases h2 : d.hubDiameter <;> cases h3 : d.pitch <;> cases h4 : d.chord <;>
    simp [mkProp, PropDims.enlarge, PropGeom.scale, h1, h2, h3, h4] <;> ring

theorem dictSet_mapVal {α β : Type} (f : α → β) (l : List (String × α)) (n : String) (a : α) :
    (dictSet l n a).map (fun kv => (kv.1, f kv.2)) = dictSet (l.map fun kv => (kv.1, f kv.2)) n (f a) := by
  induction l with
  | nil => rfl
  | cons kv t ih =>
    simp only [dictSet, List.map_cons]
    split_ifs <;> simp [ih]

theorem dictGet_mapVal {α β : Type} (f : α → β) (l : List (String × α)) (n : String) :
    dictGet (l.map fun kv => (kv.1, f kv.2)) n = (dictGet l n).map f := by
  induction l with
  | nil => rfl
  | cons kv t ih =>
    simp only [dictGet, List.map_cons]
    split_ifs <;> simp [ih]

theorem enlarge_run {k : ℝ} (hk : k ≠ 0) (p : Plane) (op : PlaneOp) :
    (op.enlarge k).run (p.enlarge k) = (op.run p).enlarge k := by
  cases op with
  | addWing name parent location side d =>
    simp only [PlaneOp.run, PlaneOp.enlarge, addWing_eq, mkWing_enlarge]
    cases hw : mkWing name side d with
    | error e => simp [Except.map]
    | ok w =>
      simp only [Except.map, Plane.enlarge, List.length_map]
      cases ht : targetOf (dictSet p.wings name p.heap.length) parent with
      | error e => simp
      | ok t =>
        simp only [List.map_append, List.map_cons, List.map_nil, mapSegs_mapSegs]
        rfl
  | airfoil id name e props =>
    simp only [PlaneOp.run, PlaneOp.enlarge, Plane.wingAirfoil]
    cases mkAirfoil name props with
    | error er => rfl
    | ok a =>
      simp only [Plane.enlarge]
      rw [enlarge_modify]
      intro s
      simp only [Seg.setAirfoil]
      split_ifs <;> rfl
  | controlSurface id props =>
    simp only [PlaneOp.run, PlaneOp.enlarge, Plane.wingCtrl]
    cases mkCtrlSurf props with
    | error er => rfl
    | ok a =>
      simp only [Plane.enlarge]
      rw [enlarge_modify]
      intro s
      rfl
  | addProp name d =>
    simp only [PlaneOp.run, PlaneOp.enlarge, Plane.addProp, Plane.enlarge, mkProp_enlarge]
    congr 1
    exact (dictSet_mapVal (PropGeom.scale k) p.props name _).symm
  | propAirfoil name af props =>
    simp only [PlaneOp.run, PlaneOp.enlarge, Plane.propAirfoil]
    cases mkAirfoil af props with
    | error er => rfl
    | ok a =>
      simp only [Plane.enlarge]
      rw [dictGet_mapVal]
      cases dictGet p.props name with
      | none => rfl
      | some q =>
        simp only [Option.map_some]
        congr 1
        exact (dictSet_mapVal (PropGeom.scale k) p.props name { q with airfoils := dictSet q.airfoils af a }).symm
  | cgLocation x y z =>
    simp only [PlaneOp.run, PlaneOp.enlarge, Plane.cgLocation, Plane.enlarge, smul_x, smul_y, smul_z, setCoord_mul hk]
    rfl
  | setRefLengths a b => rfl

theorem enlarge_runOps {k : ℝ} (hk : k ≠ 0) (ops : List PlaneOp) : ∀ p : Plane,
    runOps (p.enlarge k) (ops.map (PlaneOp.enlarge k)) = (runOps p ops).enlarge k := by
  induction ops with
  | nil => intro p; rfl
  | cons op t ih =>
    intro p
    simp only [runOps, List.map_cons, List.foldl_cons] at ih ⊢
    rw [enlarge_run hk, ih]

theorem built_enlarge {k : ℝ} (hk : k ≠ 0) (nm : String) (pos : Option V3) (ops : List PlaneOp) :
    built nm (pos.map (k • ·)) (ops.map (PlaneOp.enlarge k)) = (built nm pos ops).enlarge k := by
  unfold built
  rw [← enlarge_runOps hk]
  congr 1
  simp [newPlane, Plane.enlarge]

/-! ### positions -/

def scalePos (k : ℝ) : Except PyErr V3 → Except PyErr V3
  | .ok v => .ok (k • v)
  | .error e => .error e

theorem tipOffset_enlarge (k : ℝ) (s : Seg) (t : TipAt) : (s.enlarge k).tipOffset t = (s.tipOffset t).map (k • ·) := by
  unfold Seg.tipOffset
  simp only [Seg.enlarge]
  by_cases hc : Real.cos (s.sweep * Real.pi / 180) = 0 <;> cases t <;> cases s.side <;> simp only [hc, if_true, if_false] <;>
    first
    | rfl
    | (simp only [Option.map_some, Option.some.injEq]
       ext <;> simp <;> ring)

theorem connTarget_enlarge (k : ℝ) (p : Plane) (s : Seg) : connTarget (p.enlarge k) (s.enlarge k) =
    (connTarget p s).map fun o => o.map fun q => (q.1.enlarge k, q.2) := by
  have e1 : (s.enlarge k).parent = s.parent := rfl
  have e2 : (s.enlarge k).connectAt = s.connectAt := rfl
  unfold connTarget
  rw [e1, e2]
  cases s.parent with
  | none => rfl
  | plane => rfl
  | wing id =>
    simp only [Plane.enlarge, List.getElem?_map]
    cases p.heap[id]? with
    | none => rfl
    | some w =>
      simp only [Option.map_some]
      cases TipAt.ofStr s.connectAt with
      | error e => rfl
      | ok a => cases a <;> cases w <;> rfl

theorem segPos_enlarge (k : ℝ) (p : Plane) : ∀ (f : ℕ) (s : Seg) (t : TipAt),
    segPos (p.enlarge k) f (s.enlarge k) t = scalePos k (segPos p f s t) := by
  have hadd : ∀ (o : Option V3) (v : V3), addOff (o.map (k • ·)) (k • v) = scalePos k (addOff o v) := by
    intro o v
    cases o with
    | none => rfl
    | some o => simp [addOff, scalePos]
  have hbase : ∀ s : Seg, basePos (p.enlarge k) (s.enlarge k) = k • basePos p s := by
    intro s
    have e1 : (s.enlarge k).parent = s.parent := rfl
    unfold basePos
    rw [e1]
    cases s.parent <;> simp only [smul_zero]
    simp only [Plane.getPosition, Plane.enlarge]
    cases p.position <;> simp
  intro f
  induction f with
  | zero => intro s t; rfl
  | succ f ih =>
    intro s t
    rw [segPos_succ, segPos_succ, connTarget_enlarge]
    cases connTarget p s with
    | error e => rfl
    | ok o =>
      cases o with
      | none => simp only [Except.map, Option.map_none]; rw [tipOffset_enlarge, hbase, hadd]
      | some q =>
        simp only [Except.map, Option.map_some]
        rw [ih]
        cases segPos p f q.1 q.2 with
        | error e => rfl
        | ok v => simp only [scalePos]; rw [tipOffset_enlarge, hadd]; rfl

theorem segPosition_enlarge (k : ℝ) (p : Plane) (s : Seg) (t : TipAt) :
    (p.enlarge k).segPosition (s.enlarge k) t = scalePos k (p.segPosition s t) := by
  unfold Plane.segPosition
  rw [← segPos_enlarge]
  simp [Plane.enlarge]

/-! ### the grid -/

noncomputable def GridSec.enlarge (k : ℝ) (g : GridSec) : GridSec :=
  { g with toSection := g.toSection.scaleLength k, c1 := k * g.c1, c2 := k * g.c2 }

theorem segPoint_enlarge {k : ℝ} (hk : 0 < k) (l r : V3) (s : ℝ) : segPoint (k • l) (k • r) s = k • segPoint l r s := by
  unfold segPoint unitS
  rw [← smul_sub, nrm_smul_pos hk]
  ext <;> simp <;> field_simp

theorem leftRight_mul (k : ℝ) (side : Side) (a b : ℝ) :
    leftRight side (k * a) (k * b) = (k * (leftRight side a b).1, k * (leftRight side a b).2) := by
  cases side <;> rfl

theorem lerp_mul (k t a b : ℝ) : lerp t (k * a) (k * b) = k * lerp t a b := by unfold lerp; ring

theorem segSection_enlarge {k : ℝ} (hk : 0 < k) (c : Bool) (s : Seg) (l r : V3) (i : ℕ) :
    segSection c (s.enlarge k) (k • l) (k • r) i = (segSection c s l r i).enlarge k := by
  unfold segSection
  simp only [Seg.enlarge, leftRight_mul, lerp_mul, segPoint_enlarge hk, ← smul_sub, nrm_smul_pos hk, GridSec.enlarge,
    Section.scaleLength, mul_zero]
  congr 2
  ring

theorem withIc2_enlarge {k : ℝ} (hk : 0 < k) (g : GridSec) : (g.enlarge k).withIc2 = g.withIc2.enlarge k := by
  unfold GridSec.withIc2 GridSec.enlarge Section.scaleLength
  simp only [← smul_sub]
  congr 2
  rw [show dot g.us (k • (g.r2 - g.r1)) = k * dot g.us (g.r2 - g.r1) by simp [dot]; ring, abs_mul, abs_of_pos hk]
  ring

theorem segData_enlarge {k : ℝ} (hk : 0 < k) (p : Plane) (c : Bool) (s : Seg) :
    segData (p.enlarge k) c (s.enlarge k) = (segData p c s).map (·.map (GridSec.enlarge k)) := by
  have e1 : (s.enlarge k).csSpan = s.csSpan := rfl
  have e2 : ∀ x, (s.enlarge k).flapChord x = s.flapChord x := fun _ => rfl
  have e3 : ∀ x, (s.enlarge k).covers x ↔ s.covers x := fun _ => Iff.rfl
  have e4 : (s.enlarge k).n = s.n := rfl
  unfold segData
  simp only [segPosition_enlarge, e1, e2, e3, e4]
  by_cases h0 : c = true ∧ s.n = 0
  · simp only [h0, and_self, if_true]; rfl
  simp only [h0, if_false]
  cases p.segPosition s .leftTip with
  | error e => rfl
  | ok l =>
    simp only [scalePos]
    cases p.segPosition s .rightTip with
    | error e => rfl
    | ok r =>
      simp only [← smul_sub, nrm_smul_pos hk, mul_eq_zero, hk.ne', false_or]
      by_cases h1 : s.csSpan.2 - s.csSpan.1 = 0
      · simp only [h1, if_true]; rfl
      by_cases h2 : nrm (r - l) = 0
      · simp only [h1, h2, if_true, if_false]; rfl
      simp only [h1, h2, if_false]
      by_cases h3 : ∃ i < s.n, s.covers (sCp c s.n i) ∧ ¬ (0 ≤ s.flapChord (sCp c s.n i) ∧ s.flapChord (sCp c s.n i) ≤ 1)
      · rw [if_pos h3]; exact if_pos h3
      · rw [if_neg h3]
        refine (if_neg h3).trans ?_
        simp only [Except.map, Except.ok.injEq, List.map_map]
        apply List.map_congr_left
        intro i _
        exact segSection_enlarge hk c s l r i

end Verif
