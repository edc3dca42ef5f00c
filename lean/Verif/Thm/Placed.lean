import Verif.Lemmas.Placed
import Verif.Spec.CgFree
import Verif.Model.MUCalls
import Verif.Thm.GridExists

/-!
# Where a wing is counts, not how it was put there (C151)
-/

namespace Verif
open V3 Act

private theorem endOf_rel {p p' : Plane} {N : ℕ} {W W' : Wing} (e : p.heap[N]? = some W) (e' : p'.heap[N]? = some W')
    (hW : WingRel SegMoved W W') (h : ∀ sd t, p'.endOf N sd t = p.endOf N sd t) :
    WingRel (fun s s' => ∀ t, p'.segPosition s' t = p.segPosition s t) W W' := by
  have hl := fun t => h .left t
  have hr := fun t => h .right t
  simp only [Plane.endOf, e, e', Option.bind_some] at hl hr
  cases hW with
  | both _ _ =>
    simp only [Wing.leftSeg, Wing.rightSeg, Option.map_some, Option.some.injEq] at hl hr
    exact .both hl hr
  | onlyLeft _ =>
    simp only [Wing.leftSeg, Option.map_some, Option.some.injEq] at hl
    exact .onlyLeft hl
  | onlyRight _ =>
    simp only [Wing.rightSeg, Option.map_some, Option.some.injEq] at hr
    exact .onlyRight hr

private theorem WingRel.link {R S T U : Seg → Seg → Prop} {A B C D : Wing} (h1 : WingRel R A B) (h2 : WingRel S A C) (h3 : WingRel T C D)
    (h : ∀ a b c d, R a b → S a c → T c d → U b d) : WingRel U B D := by
  cases h1 with
  | both a1 b1 => cases h2 with | both a2 b2 => cases h3 with | both a3 b3 => exact .both (h _ _ _ _ a1 a2 a3) (h _ _ _ _ b1 b2 b3)
  | onlyLeft a1 => cases h2 with | onlyLeft a2 => cases h3 with | onlyLeft a3 => exact .onlyLeft (h _ _ _ _ a1 a2 a3)
  | onlyRight a1 => cases h2 with | onlyRight a2 => cases h3 with | onlyRight a3 => exact .onlyRight (h _ _ _ _ a1 a2 a3)

private theorem mkWing_moved (w side : String) {d d' : WingDims} (hd : d' = { d with position := d'.position, yoffset := d'.yoffset }) :
    (∃ e, mkWing w side d = .error e ∧ mkWing w side d' = .error e) ∨
      ∃ W W', mkWing w side d = .ok W ∧ mkWing w side d' = .ok W' ∧ WingRel SegMoved W W' := by
  have hs : ∀ n sd, SegMoved (mkSeg n sd d) (mkSeg n sd d') := by intro n sd; rw [hd]; rfl
  unfold mkWing
  split_ifs
  · exact .inr ⟨_, _, rfl, rfl, .both (hs _ _) (hs _ _)⟩
  · exact .inr ⟨_, _, rfl, rfl, .onlyRight (hs _ _)⟩
  · exact .inr ⟨_, _, rfl, rfl, .onlyLeft (hs _ _)⟩
  · exact .inl ⟨_, rfl, rfl⟩

private theorem SegMoved.connect {s s' : Seg} (h : SegMoved s s') (t t' : Parent) (l l' : String) :
    SegMoved (s.connectTo t l) (s'.connectTo t' l') := by
  unfold SegMoved at h ⊢
  rw [h]; rfl

private theorem SegMoved.connectL {s s' : Seg} (h : SegMoved s s') (t : Parent) (l : String) : SegMoved (s.connectTo t l) s' := by
  unfold SegMoved at h ⊢
  rw [h]; rfl

private theorem SegMoved.connectR {s s' : Seg} (h : SegMoved s s') (t : Parent) (l : String) : SegMoved s (s'.connectTo t l) := by
  unfold SegMoved at h ⊢
  rw [h]; rfl

private theorem mapSegs_id (W : Wing) : W.mapSegs (fun s => s) = W := by cases W <;> rfl

/-- the planes right after the two calls -/
private theorem added (p : Plane) (w : String) (parent parent' : Option String) (location location' side : String) {d d' : WingDims}
    (hd : d' = { d with position := d'.position, yoffset := d'.yoffset }) :
    (PlaneOp.addWing w parent location side d).run p = (PlaneOp.addWing w parent' location' side d').run p ∨
      PlacedAt p.heap.length ((PlaneOp.addWing w parent location side d).run p) ((PlaneOp.addWing w parent' location' side d').run p) ∧
        ∃ Z, ((PlaneOp.addWing w parent location side d).run p).heap[p.heap.length]? = some Z := by
  simp only [PlaneOp.run, addWing_eq]
  rcases mkWing_moved w side hd with ⟨e, h1, h2⟩ | ⟨W, W', h1, h2, hW⟩
  · rw [h1, h2]; exact .inl rfl
  · right
    rw [h1, h2]
    have key : ∀ Z Z' : Wing, WingRel SegMoved Z Z' → PlacedAt p.heap.length
        { p with heap := p.heap ++ [Z], wings := dictSet p.wings w p.heap.length }
        { p with heap := p.heap ++ [Z'], wings := dictSet p.wings w p.heap.length } ∧ ∃ Y, (p.heap ++ [Z])[p.heap.length]? = some Y := by
      intro Z Z' hZ
      refine ⟨?_, Z, by simp⟩
      refine ⟨List.rel_append (List.forall₂_same.2 fun V _ => WingRel.refl (R := SegMoved) (fun _ => rfl) V) (.cons hZ .nil), fun id hid => ?_,
        rfl, rfl, rfl, rfl, rfl, rfl, rfl⟩
      simp only [List.getElem?_append]
      split_ifs with hlt
      · rfl
      · have : 0 < id - p.heap.length := by omega
        rw [List.getElem?_eq_none (by simp only [List.length_cons, List.length_nil]; omega), List.getElem?_eq_none (by simp only [List.length_cons, List.length_nil]; omega)]
    simp only
    cases targetOf (dictSet p.wings w p.heap.length) parent with
    | error e =>
      cases targetOf (dictSet p.wings w p.heap.length) parent' with
      | error e' => exact key _ _ hW
      | ok t' =>
        have h := hW.map (R' := SegMoved) (f := fun s => s) (f' := (·.connectTo t' location')) fun s s' hs => hs.connectR t' location'
        rw [mapSegs_id] at h
        exact key _ _ h
    | ok t =>
      cases targetOf (dictSet p.wings w p.heap.length) parent' with
      | error e' =>
        have h := hW.map (R' := SegMoved) (f := (·.connectTo t location)) (f' := fun s => s) fun s s' hs => hs.connectL t location
        rw [mapSegs_id] at h
        exact key _ _ h
      | ok t' => exact key _ _ (hW.map fun s s' hs => hs.connect t t' location location')

private theorem runOps_append (p : Plane) (a b : List PlaneOp) : runOps p (a ++ b) = runOps (runOps p a) b := List.foldl_append

private theorem placed_same (nm : String) (pos : Option V3) (before after : List PlaneOp) (units : Option (Option String))
    (w : String) (parent parent' : Option String) (location location' side : String) (d d' : WingDims)
    (hd : d' = { d with position := d'.position, yoffset := d'.yoffset })
    (hends : ∀ sd t, (built nm pos (before ++ [.addWing w parent' location' side d'])).endOf (built nm pos before).heap.length sd t =
      (built nm pos (before ++ [.addWing w parent location side d])).endOf (built nm pos before).heap.length sd t)
    (p p' : Plane) (hp : p = { built nm pos (before ++ [.addWing w parent location side d] ++ after) with units })
    (hp' : p' = { built nm pos (before ++ [.addWing w parent' location' side d'] ++ after) with units }) : SameCraft p p' := by
  have hI := built_inv nm pos (before ++ [.addWing w parent location side d])
  have hI' := built_inv nm pos (before ++ [.addWing w parent' location' side d'])
  have hJ := built_inv nm pos (before ++ [.addWing w parent location side d] ++ after)
  have hJ' := built_inv nm pos (before ++ [.addWing w parent' location' side d'] ++ after)
  have hA := added (built nm pos before) w parent parent' location location' side hd
  unfold built at *
  rw [runOps_append _ _ after] at hJ hJ' hp hp'
  rw [runOps_append _ before] at hI hI' hends hJ hJ' hp hp'
  rw [runOps_append _ before] at hends
  change SameCraft _ _
  generalize hp0 : runOps (newPlane nm pos) before = p0 at *
  have hq : runOps p0 [.addWing w parent location side d] = (PlaneOp.addWing w parent location side d).run p0 := rfl
  have hq' : runOps p0 [.addWing w parent' location' side d'] = (PlaneOp.addWing w parent' location' side d').run p0 := rfl
  rw [hq] at hI hends hJ hp
  rw [hq'] at hI' hends hJ' hp'
  generalize (PlaneOp.addWing w parent location side d).run p0 = q at *
  generalize (PlaneOp.addWing w parent' location' side d').run p0 = q' at *
  have hU : ∀ {r : Plane}, PlaneInv r → PlaneInv { r with units } := fun h => ⟨h.ids, h.wing⟩
  rcases hA with rfl | ⟨hA, Z, hZ⟩
  · rw [hp, hp']
    exact ⟨List.forall₂_same.2 fun _ _ => ⟨rfl, fun _ => rfl⟩, rfl, rfl, rfl, rfl, rfl, rfl, rfl⟩
  · have hF : PlacedAt p0.heap.length { runOps q after with units } { runOps q' after with units } :=
      { PlacedAt.runOps after hA with units := rfl }
    rw [hp, hp']
    refine hF.same (hU hJ) (hU hJ') fun W W' h1 h2 => ?_
    have hL : Later q { runOps q after with units } := ⟨((Later.refl q).runOps after).position, ((Later.refl q).runOps after).heap⟩
    have hL' : Later q' { runOps q' after with units } := ⟨((Later.refl q').runOps after).position, ((Later.refl q').runOps after).heap⟩
    rcases placedAt_get hA.heap p0.heap.length with ⟨g1, g2⟩ | ⟨V, V', g1, g2, hV⟩
    · rw [hZ] at g1; cases g1
    · exact (hL.ends hI (hU hJ) g1 h1).link (endOf_rel g1 g2 hV hends) (hL'.ends hI' (hU hJ') g2 h2)
        fun a b c e r1 r2 r3 t => by rw [r3, r2, r1]

/-- **C151.** Build an aircraft twice by the same calls, except that one wing is connected to another parent or at another location, or is given
another `position` and `yoffset`.  If right after that call both ends of both halves of the wing are reported in the same places (or raise the
same exceptions), then the two aircraft are the same to `MachUp`, whatever is added to them later (also to the tips of that wing): the
constructor raises the same exception or makes the same object, and every sequence of calls of any methods gives the same answer and leaves
the caller's dictionaries the same. -/
theorem C151_placed (table : String → ℝ → ℝ) (mem : String → ℕ → ℕ → Option ℝ) (simps : List ℝ → List ℝ → ℝ) (fuel : ℕ)
    (nm : String) (pos : Option V3) (before after : List PlaneOp) (units : Option (Option String))
    (w : String) (parent parent' : Option String) (location location' side : String) (d d' : WingDims)
    (hd : d' = { d with position := d'.position, yoffset := d'.yoffset })
    (hends : ∀ sd t, (built nm pos (before ++ [.addWing w parent' location' side d'])).endOf (built nm pos before).heap.length sd t =
      (built nm pos (before ++ [.addWing w parent location side d])).endOf (built nm pos before).heap.length sd t)
    (p p' : Plane) (hp : p = { built nm pos (before ++ [.addWing w parent location side d] ++ after) with units })
    (hp' : p' = { built nm pos (before ++ [.addWing w parent' location' side d'] ++ after) with units }) :
    openMachUp table mem p' = openMachUp table mem p ∧
    ∀ o : Analyser, openMachUp table mem p = .ok o →
      ∀ (bad : _) (hist : List (Request (Fin (sectionsOf o.wing)))) (q : Request (Fin (sectionsOf o.wing))),
        let call (r : Request (Fin (sectionsOf o.wing))) : AnyCall (o.backend p simps fuel bad) := ⟨r.what, r.aero, r.ctrl, r.ps⟩
        let call' (r : Request (Fin (sectionsOf o.wing))) : AnyCall (o.backend p' simps fuel bad) := ⟨r.what, r.aero, r.ctrl, r.ps⟩
        let r := (call q).run p.cg (afterCalls p.cg (o.fresh p simps fuel bad none none) (hist.map call))
        let r' := (call' q).run p'.cg (afterCalls p'.cg (o.fresh p' simps fuel bad none none) (hist.map call'))
        r'.1 = r.1 ∧ r'.2.aero = r.2.aero ∧ r'.2.ctrl = r.2.ctrl := by
  have h := placed_same nm pos before after units w parent parent' location location' side d d' hd hends p p' hp hp'
  refine ⟨h.open table mem, fun o _ bad hist q => ?_⟩
  have e1 := h.wings
  have e2 := h.props
  have e3 := h.cg
  clear hp hp' h
  obtain ⟨_, _, _, _, _, _, _, _, _⟩ := p
  obtain ⟨_, _, _, _, _, _, _, _, _⟩ := p'
  simp only at e1 e2 e3
  subst e1 e2 e3
  exact ⟨rfl, rfl, rfl⟩

/-! ### three ways to place a wing -/

private theorem new_wing (p : Plane) {w side : String} {d : WingDims} {W : Wing} (hm : mkWing w side d = .ok W) {parent : Option String}
    {t : Parent} (ht : targetOf (dictSet p.wings w p.heap.length) parent = .ok t) (location : String) :
    ((PlaneOp.addWing w parent location side d).run p).heap[p.heap.length]? = some (W.mapSegs (·.connectTo t location)) := by
  simp only [PlaneOp.run, addWing_eq, hm, ht]
  simp

/-- a segment connected to the aircraft -/
private theorem end_plane {q : Plane} (hq : PlaneInv q) {N : ℕ} {W : Wing} (hN : q.heap[N]? = some W) {s : Seg} (hs : s ∈ W.segments)
    (hpar : s.parent = .plane) (t : TipAt) : q.segPosition s t = addOff (s.tipOffset t) q.getPosition := by
  rw [segPosition_succ hq hN hs]
  have c : connTarget q s = .ok none := by unfold connTarget; rw [hpar]
  rw [c]
  simp only [basePos, hpar]

/-- a segment connected to the tip of another wing -/
private theorem end_tip {p q : Plane} (hp : PlaneInv p) (hq : PlaneInv q) (hL : Later p q) {N : ℕ} {W : Wing} (hN : q.heap[N]? = some W)
    {s : Seg} (hs : s ∈ W.segments) {M : ℕ} (hpar : s.parent = .wing M) (hat : s.connectAt = s.side.str ++ "_" ++ "tip")
    {v : V3} (hv : p.endOf M s.side s.side.tip = some (.ok v)) (t : TipAt) : q.segPosition s t = addOff (s.tipOffset t) v := by
  unfold Plane.endOf at hv
  cases hM : p.heap[M]? with
  | none => rw [hM] at hv; cases hv
  | some V =>
    obtain ⟨V', hM', -⟩ := hL.heap M V hM
    have he := hL.ends hp hq hM hM'
    rw [segPosition_succ hq hN hs]
    rw [hM] at hv
    simp only [Option.bind_some] at hv
    have hc : ∃ a, connTarget q s = .ok (some (a, s.side.tip)) ∧ q.segPosition a s.side.tip = .ok v := by
      unfold connTarget
      rw [hpar, hat]
      simp only [hM']
      cases hsd : s.side with
      | left =>
        rw [hsd] at hv
        rw [show TipAt.ofStr (Side.left.str ++ "_" ++ "tip") = .ok .leftTip from rfl]
        rcases he.left with ⟨m1, m2⟩ | ⟨a, a', m1, m2, hpos⟩
        · rw [m1] at hv; cases hv
        · rw [m1] at hv
          simp only [Option.map_some, Option.some.injEq] at hv
          simp only [m2]
          exact ⟨a', rfl, by rw [hpos]; exact hv⟩
      | right =>
        rw [hsd] at hv
        rw [show TipAt.ofStr (Side.right.str ++ "_" ++ "tip") = .ok .rightTip from rfl]
        rcases he.right with ⟨m1, m2⟩ | ⟨a, a', m1, m2, hpos⟩
        · rw [m1] at hv; cases hv
        · rw [m1] at hv
          simp only [Option.map_some, Option.some.injEq] at hv
          simp only [m2]
          exact ⟨a', rfl, by rw [hpos]; exact hv⟩
    obtain ⟨a, c1, c2⟩ := hc
    rw [c1]
    simp only [c2]

private theorem addOff_eq {a b : Option V3} {u v : V3} (h : a = b.map (· + (v - u))) : addOff a u = addOff b v := by
  subst h
  cases b with
  | none => rfl
  | some x =>
    simp only [Option.map_some, addOff, Except.ok.injEq]
    ext <;> simp <;> ring

private theorem tipOffset_placed {s s' : Seg} (δ : V3) (h1 : s'.side = s.side) (h2 : s'.span = s.span) (h3 : s'.sweep = s.sweep)
    (h4 : s'.dihedral = s.dihedral) (hx : s'.dpos.x = s.dpos.x + δ.x) (hz : s'.dpos.z = s.dpos.z + δ.z)
    (hl : s.side = .left → s'.dpos.y - s'.yoffset = s.dpos.y - s.yoffset + δ.y)
    (hr : s.side = .right → s'.dpos.y + s'.yoffset = s.dpos.y + s.yoffset + δ.y) (t : TipAt) :
    s'.tipOffset t = (s.tipOffset t).map (· + δ) := by
  unfold Seg.tipOffset
  rw [h1, h2, h3, h4, hx, hz]
  cases hs : s.side with
  | left =>
    have := hl hs
    cases t <;> simp only <;> (try split_ifs) <;> simp only [Option.map_some, Option.map_none, Option.some.injEq] <;>
      (ext <;> simp only [V3.add_x, V3.add_y, V3.add_z] <;> linarith)
  | right =>
    have := hr hs
    cases t <;> simp only <;> (try split_ifs) <;> simp only [Option.map_some, Option.map_none, Option.some.injEq] <;>
      (ext <;> simp only [V3.add_x, V3.add_y, V3.add_z] <;> linarith)

/-- **C151, attached to tips.** A wing connected to the tips of a wing `m` that has been added before is where a wing connected to the
aircraft is whose `position` and `yoffset` have been worked out from the places of those tips: for a wing with one half, `vl` (or `vr`) is the
place of the tip, relative to that of the aircraft the `position` has to be given; a wing with two halves has to have its tips at the
same `x` and `z`, and the `yoffset` is larger by half of their distance.  So `C151_placed` applies. -/
theorem C151_attached (nm : String) (pos : Option V3) (before : List PlaneOp) (w m : String) (hm0 : m ≠ "") (hmw : m ≠ w) (M : ℕ)
    (hM : dictGet (built nm pos before).wings m = some M) (side : String) (d d' : WingDims)
    (hd : d' = { d with position := d'.position, yoffset := d'.yoffset })
    (vl vr : V3) (hvl : side ≠ "right" → (built nm pos before).endOf M .left .leftTip = some (.ok vl))
    (hvr : side ≠ "left" → (built nm pos before).endOf M .right .rightTip = some (.ok vr))
    (hplace : (side = "left" ∧ d'.position = some (vl - pos.getD 0 + d.position.getD 0) ∧ d'.yoffset = d.yoffset) ∨
      (side = "right" ∧ d'.position = some (vr - pos.getD 0 + d.position.getD 0) ∧ d'.yoffset = d.yoffset) ∨
      (side = "both" ∧ vl.x = vr.x ∧ vl.z = vr.z ∧
        d'.position = some (⟨vr.x, (vl.y + vr.y) / 2, vr.z⟩ - pos.getD 0 + d.position.getD 0) ∧
        d'.yoffset = some (d.yoffset.getD 0 + (vr.y - vl.y) / 2))) :
    ∀ sd t, (built nm pos (before ++ [.addWing w none "tip" side d'])).endOf (built nm pos before).heap.length sd t =
      (built nm pos (before ++ [.addWing w (some m) "tip" side d])).endOf (built nm pos before).heap.length sd t := by
  have hI0 := built_inv nm pos before
  have hI := built_inv nm pos (before ++ [.addWing w (some m) "tip" side d])
  have hI' := built_inv nm pos (before ++ [.addWing w none "tip" side d'])
  have hpos' : (built nm pos (before ++ [.addWing w none "tip" side d'])).position = (built nm pos before).position := by
    unfold built; rw [runOps_append]
    exact ((Later.refl _).runOps [_]).position
  have hposn : (built nm pos before).position = pos := by
    have : Later (newPlane nm pos) (built nm pos before) := (Later.refl _).runOps before
    exact this.position
  have hL : Later (built nm pos before) (built nm pos (before ++ [.addWing w (some m) "tip" side d])) := by
    unfold built; rw [runOps_append]
    exact (Later.refl _).runOps [_]
  have hnew : ∀ {W : Wing}, mkWing w side d = .ok W → (built nm pos (before ++ [.addWing w (some m) "tip" side d])).heap[(built nm pos before).heap.length]? =
      some (W.mapSegs (·.connectTo (.wing M) "tip")) := by
    intro W hW
    have ht : targetOf (dictSet (built nm pos before).wings w (built nm pos before).heap.length) (some m) = .ok (.wing M) := by
      have h : dictGet (dictSet (built nm pos before).wings w (built nm pos before).heap.length) m = some M := by
        rw [dictGet_dictSet, if_neg (by first | exact hmw | exact hmw.symm), hM]
      unfold targetOf
      split
      · rename_i e; cases e
      · rename_i e; exact absurd (Option.some.inj e) hm0
      · rename_i e; cases e; rw [h]
    have := new_wing (built nm pos before) hW ht "tip"
    unfold built at this ⊢
    rw [runOps_append]
    exact this
  have hnew' : ∀ {W : Wing}, mkWing w side d' = .ok W → (built nm pos (before ++ [.addWing w none "tip" side d'])).heap[(built nm pos before).heap.length]? =
      some (W.mapSegs (·.connectTo .plane "tip")) := by
    intro W hW
    have := new_wing (built nm pos before) hW (parent := none) (t := .plane) rfl "tip"
    unfold built at this ⊢
    rw [runOps_append]
    exact this
  have hgp : (built nm pos (before ++ [.addWing w none "tip" side d'])).getPosition = pos.getD 0 := by
    unfold Plane.getPosition; rw [hpos', hposn]
  generalize built nm pos (before ++ [.addWing w (some m) "tip" side d]) = q at *
  generalize built nm pos (before ++ [.addWing w none "tip" side d']) = q' at *
  generalize built nm pos before = p0 at *
  have half : ∀ {sd : Side} {W W' : Wing} {n : String}, q.heap[p0.heap.length]? = some W → q'.heap[p0.heap.length]? = some W' →
      (mkSeg n sd d).connectTo (.wing M) "tip" ∈ W.segments → (mkSeg n sd d').connectTo .plane "tip" ∈ W'.segments → ∀ {v : V3},
      p0.endOf M sd (match sd with | .left => .leftTip | .right => .rightTip) = some (.ok v) →
      (d'.position.getD 0).x = (d.position.getD 0).x + (v - pos.getD 0).x → (d'.position.getD 0).z = (d.position.getD 0).z + (v - pos.getD 0).z →
      (sd = .left → (d'.position.getD 0).y - d'.yoffset.getD 0 = (d.position.getD 0).y - d.yoffset.getD 0 + (v - pos.getD 0).y) →
      (sd = .right → (d'.position.getD 0).y + d'.yoffset.getD 0 = (d.position.getD 0).y + d.yoffset.getD 0 + (v - pos.getD 0).y) →
      ∀ t, q'.segPosition ((mkSeg n sd d').connectTo .plane "tip") t = q.segPosition ((mkSeg n sd d).connectTo (.wing M) "tip") t := by
    intro sd W W' n hW hW' hs hs' v hv hx hz hl hr t
    rw [end_plane hI' hW' hs' rfl, end_tip hI0 hI hL hW hs rfl rfl hv, hgp]
    have f1 : (mkSeg n sd d').span = (mkSeg n sd d).span := by rw [hd]; rfl
    have f2 : (mkSeg n sd d').sweep = (mkSeg n sd d).sweep := by rw [hd]; rfl
    have f3 : (mkSeg n sd d').dihedral = (mkSeg n sd d).dihedral := by rw [hd]; rfl
    exact addOff_eq (tipOffset_placed (s := (mkSeg n sd d).connectTo (.wing M) "tip") (s' := (mkSeg n sd d').connectTo .plane "tip") _ rfl f1 f2 f3
      hx hz hl hr t)
  intro sd t
  rcases hplace with ⟨rfl, h1, h2⟩ | ⟨rfl, h1, h2⟩ | ⟨rfl, hx, hz, h1, h2⟩
  · have m1 : mkWing w "left" d = .ok (.onlyLeft (mkSeg ("left_" ++ w) .left d)) := by simp [mkWing]
    have m2 : mkWing w "left" d' = .ok (.onlyLeft (mkSeg ("left_" ++ w) .left d')) := by simp [mkWing]
    have g1 := hnew m1
    have g2 := hnew' m2
    simp only [Wing.mapSegs] at g1 g2
    cases sd with
    | right => simp only [Plane.endOf, g1, g2, Option.bind_some, Wing.rightSeg, Option.map_none]
    | left =>
      simp only [Plane.endOf, g1, g2, Option.bind_some, Wing.leftSeg, Option.map_some]
      rw [half g1 g2 (by simp [Wing.segments]) (by simp [Wing.segments]) (hvl (by decide))]
      · rw [h1]; simp; ring
      · rw [h1]; simp; ring
      · intro _; rw [h1, h2]; simp; ring
      · intro h; cases h
  · have m1 : mkWing w "right" d = .ok (.onlyRight (mkSeg ("right_" ++ w) .right d)) := by simp [mkWing]
    have m2 : mkWing w "right" d' = .ok (.onlyRight (mkSeg ("right_" ++ w) .right d')) := by simp [mkWing]
    have g1 := hnew m1
    have g2 := hnew' m2
    simp only [Wing.mapSegs] at g1 g2
    cases sd with
    | left => simp only [Plane.endOf, g1, g2, Option.bind_some, Wing.leftSeg, Option.map_none]
    | right =>
      simp only [Plane.endOf, g1, g2, Option.bind_some, Wing.rightSeg, Option.map_some]
      rw [half g1 g2 (by simp [Wing.segments]) (by simp [Wing.segments]) (hvr (by decide))]
      · rw [h1]; simp; ring
      · rw [h1]; simp; ring
      · intro h; cases h
      · intro _; rw [h1, h2]; simp; ring
  · have m1 : mkWing w "both" d = .ok (.both (mkSeg ("left_" ++ w) .left d) (mkSeg ("right_" ++ w) .right d)) := by simp [mkWing]
    have m2 : mkWing w "both" d' = .ok (.both (mkSeg ("left_" ++ w) .left d') (mkSeg ("right_" ++ w) .right d')) := by simp [mkWing]
    have g1 := hnew m1
    have g2 := hnew' m2
    simp only [Wing.mapSegs] at g1 g2
    cases sd with
    | left =>
      simp only [Plane.endOf, g1, g2, Option.bind_some, Wing.leftSeg, Option.map_some]
      rw [half g1 g2 (by simp [Wing.segments]) (by simp [Wing.segments]) (hvl (by decide))]
      · rw [h1]; simp [hx]; ring
      · rw [h1]; simp [hz]; ring
      · intro _; rw [h1, h2]; simp; ring
      · intro h; cases h
    | right =>
      simp only [Plane.endOf, g1, g2, Option.bind_some, Wing.rightSeg, Option.map_some]
      rw [half g1 g2 (by simp [Wing.segments]) (by simp [Wing.segments]) (hvr (by decide))]
      · rw [h1]; simp; ring
      · rw [h1]; simp; ring
      · intro h; cases h
      · intro _; rw [h1, h2]; simp; ring

private theorem demo_tip (sd : Side) : (built "demo" none (demoOps.take 1)).endOf 0 sd (match sd with | .left => .leftTip | .right => .rightTip) =
    some (.ok ⟨-(4 * Real.sin (30 * Real.pi / 180) / Real.cos (30 * Real.pi / 180)), (match sd with | .left => -4 | .right => 4), 0⟩) := by
  have h30 : Real.cos (30 * Real.pi / 180) ≠ 0 := by
    apply ne_of_gt
    apply Real.cos_pos_of_mem_Ioo
    have := Real.pi_pos
    constructor <;> linarith
  have hh : (built "demo" none (demoOps.take 1)).heap[0]? = some (.both { demoMain .left with cs := {} } { demoMain .right with cs := {} }) := rfl
  have hI := built_inv "demo" none (demoOps.take 1)
  have hg : (built "demo" none (demoOps.take 1)).getPosition = 0 := rfl
  unfold Plane.endOf
  rw [hh]
  cases sd with
  | left =>
    simp only [Option.bind_some, Wing.leftSeg, Option.map_some, Option.some.injEq]
    rw [end_plane hI hh (by simp [Wing.segments]) rfl, hg]
    simp only [Seg.tipOffset, demoMain, h30, if_false, addOff, Except.ok.injEq]
    ext <;> simp
  | right =>
    simp only [Option.bind_some, Wing.rightSeg, Option.map_some, Option.some.injEq]
    rw [end_plane hI hh (by simp [Wing.segments]) rfl, hg]
    simp only [Seg.tipOffset, demoMain, h30, if_false, addOff, Except.ok.injEq]
    ext <;> simp

-- C151: the winglets of the aircraft `demo`, connected to the tips of its swept main wing, could as well have been given the position of
-- these tips and a `yoffset` of 4; a `MachUp` object exists for both
example (table : String → ℝ → ℝ) (mem : String → ℕ → ℕ → Option ℝ) : ∃ x : ℝ,
    let p' := built "demo" none (demoOps.take 1 ++ [.addWing "Winglet" none "tip" "both"
      { position := some ⟨x, 0, 0⟩, yoffset := some 4, semispan := some 1, dihedral := some 80, isMain := some false, grid := some 7 }] ++
      demoOps.drop 2)
    openMachUp table mem p' = openMachUp table mem demo ∧ ∃ o, openMachUp table mem p' = .ok o := by
  refine ⟨-(4 * Real.sin (30 * Real.pi / 180) / Real.cos (30 * Real.pi / 180)), ?_⟩
  intro p'
  have h := (C151_placed table mem (fun _ _ => 0) 0 "demo" none (demoOps.take 1) (demoOps.drop 2) none "Winglet" (some "Main") none "tip" "tip" "both"
    { semispan := some 1, dihedral := some 80, isMain := some false, grid := some 7 }
    { position := some ⟨_, 0, 0⟩, yoffset := some 4, semispan := some 1, dihedral := some 80, isMain := some false, grid := some 7 } rfl
    (C151_attached "demo" none (demoOps.take 1) "Winglet" "Main" (by decide) (by decide) 0 rfl "both" _ _ rfl _ _
      (fun _ => demo_tip .left) (fun _ => demo_tip .right) (.inr (.inr ⟨rfl, rfl, rfl, by simp, by simp⟩))) demo p' rfl rfl).1
  refine ⟨h, ?_⟩
  rw [h]
  obtain ⟨g, hg⟩ := demo_grid true
  have hw : demo.wings ≠ [] := by rw [show demo.wings = [("Main", 0), ("Winglet", 1), ("Fin", 2)] from rfl]; simp
  have hl : inferLat demo.segments ≠ 0 := by
    rw [demo_segments]
    norm_num [inferLat, demoMain, demoWinglet, demoFin]
  have hr : refLengths demo g.refArea = .ok (inferLat demo.segments, g.refArea / inferLat demo.segments) := by
    unfold refLengths
    rw [show demo.latRef = none from rfl, show demo.longRef = none from rfl]
    simp only [safeDiv, if_neg hl]
    rfl
  have hm : mkWingPart demo = .ok (some ⟨g, inferLat demo.segments, g.refArea / inferLat demo.segments⟩) := by
    unfold mkWingPart
    rw [if_neg hw, hg]
    change (refLengths demo g.refArea >>= _) = _
    rw [hr]
    rfl
  have hpr : demo.props = [] := rfl
  have ho : openMachUp table mem demo = .ok ⟨some ⟨g, inferLat demo.segments, g.refArea / inferLat demo.segments⟩, none⟩ := by
    unfold openMachUp
    rw [hm, hpr]
    rfl
  exact ⟨_, ho⟩

end Verif
