import Verif.Lemmas.CutSeg
import Verif.Lemmas.PlaneOrder
import Verif.Lemmas.ListImage

/-! Helper lemmas: aircraft that differ in whether one wing was described in one piece or in two. -/

namespace Verif
open V3

/-- where wing objects are found when object `N` has become two; connections go to the outer piece -/
def shiftId (N j : ℕ) : ℕ := if j < N then j else j + 1

theorem shiftId_inj {N a b : ℕ} (h : shiftId N a = shiftId N b) : a = b := by
  unfold shiftId at h
  split_ifs at h <;> omega

theorem shiftId_ge {N a : ℕ} (h : N ≤ a) : shiftId N a = a + 1 := by
  unfold shiftId; rw [if_neg (by omega)]

theorem shiftId_lt {N a : ℕ} (h : a < N) : shiftId N a = a := by
  unfold shiftId; rw [if_pos h]

/-- the pieces of a wing -/
inductive CutWing (N : ℕ) (x : ℝ) : Wing → Wing → Wing → Prop
  | both {l r li ri lo ro : Seg} (hl : CutSeg N x l li lo) (hr : CutSeg N x r ri ro) :
    CutWing N x (.both l r) (.both li ri) (.both lo ro)
  | onlyLeft {l li lo : Seg} (hl : CutSeg N x l li lo) : CutWing N x (.onlyLeft l) (.onlyLeft li) (.onlyLeft lo)
  | onlyRight {r ri ro : Seg} (hr : CutSeg N x r ri ro) : CutWing N x (.onlyRight r) (.onlyRight ri) (.onlyRight ro)

structure PlaneCut (N : ℕ) (x : ℝ) (w w' : String) (p p' : Plane) : Prop where
  len : p'.heap.length = p.heap.length + 1
  low : N < p.heap.length
  heap : ∀ j, j ≠ N → p'.heap[shiftId N j]? = (p.heap[j]?).map (Wing.mapSegs (Seg.ren (shiftId N)))
  cut : ∃ W Wi Wo, p.heap[N]? = some W ∧ p'.heap[N]? = some Wi ∧ p'.heap[N + 1]? = some Wo ∧ CutWing N x W Wi Wo
  nodup : (p.wings.map (·.1)).Nodup
  nodup' : (p'.wings.map (·.1)).Nodup
  own : dictGet p.wings w = some N ∧ dictGet p'.wings w = some N
  new : dictGet p.wings w' = none ∧ dictGet p'.wings w' = some (N + 1)
  only : ∀ k, dictGet p.wings k = some N → k = w
  get : ∀ k, k ≠ w → k ≠ w' → dictGet p'.wings k = (dictGet p.wings k).map (shiftId N)
  cg : p'.cg = p.cg
  position : p'.position = p.position

/-- a change made to all segments of the wing and of its pieces -/
theorem CutWing.map {N : ℕ} {x : ℝ} {W Wi Wo : Wing} (h : CutWing N x W Wi Wo) {f g k : Seg → Seg}
    (hf : ∀ s i o, CutSeg N x s i o → CutSeg N x (f s) (g i) (k o)) : CutWing N x (W.mapSegs f) (Wi.mapSegs g) (Wo.mapSegs k) := by
  cases h with
  | both hl hr => exact .both (hf _ _ _ hl) (hf _ _ _ hr)
  | onlyLeft hl => exact .onlyLeft (hf _ _ _ hl)
  | onlyRight hr => exact .onlyRight (hf _ _ _ hr)

theorem CutSeg.setAirfoil {N : ℕ} {x : ℝ} {s i o : Seg} (h : CutSeg N x s i o) (a : Airfoil) :
    CutSeg N x (s.setAirfoil "both" a) (i.setAirfoil "both" a) (o.setAirfoil "both" a) := by
  simp only [Seg.setAirfoil, if_true]
  exact { h with foil := ⟨rfl, rfl, rfl, rfl, rfl⟩ }

theorem onPiece_truthy (q : CtrlSurfProps) (a b : ℝ) : (q.onPiece a b).truthy = q.truthy := by
  unfold CtrlSurfProps.truthy CtrlSurfProps.onPiece
  simp

theorem mkCtrlSurf_onPiece (q : CtrlSurfProps) (a b : ℝ) (ht : q.truthy = true) :
    mkCtrlSurf (q.onPiece a b) = (mkCtrlSurf q).map fun c =>
      { c with spanRoot := (c.spanRoot - a) / b, spanTip := (c.spanTip - a) / b } := by
  unfold mkCtrlSurf
  rw [onPiece_truthy, ht]
  simp only [if_true, CtrlSurfProps.onPiece]
  cases q.percentSpan with
  | none => rfl
  | some sp =>
    cases q.percentChord with
    | none => rfl
    | some ch =>
      cases q.mix with
      | none => rfl
      | some m => rfl

theorem getElem?_modify_ne {α : Type*} (l : List α) (f : α → α) {i j : ℕ} (h : i ≠ j) : (l.modify i f)[j]? = l[j]? := by
  rw [List.getElem?_modify]
  simp [h]

theorem getElem?_modify_eq {α : Type*} (l : List α) (f : α → α) (i : ℕ) : (l.modify i f)[i]? = (l[i]?).map f := by
  rw [List.getElem?_modify]
  simp

theorem dictGet_ne {α : Type*} (d : List (String × α)) {k k' : String} (v : α) (h : k ≠ k') : dictGet (dictSet d k' v) k = dictGet d k := by
  rw [dictGet_dictSet, if_neg h]

variable {N : ℕ} {x : ℝ} {w w' : String}

/-- a change of one object other than `N` that does not touch connections -/
theorem PlaneCut.modify_other {p p' : Plane} (h : PlaneCut N x w w' p p') (id : ℕ) (hid : id ≠ N) (f : Seg → Seg)
    (hf : ∀ s, (f s).ren (shiftId N) = f (s.ren (shiftId N))) :
    PlaneCut N x w w' { p with heap := p.heap.modify id (·.mapSegs f) }
      { p' with heap := p'.heap.modify (shiftId N id) (·.mapSegs f) } := by
  have hs : shiftId N id ≠ N := by unfold shiftId; split_ifs <;> omega
  have hs' : shiftId N id ≠ N + 1 := by unfold shiftId; split_ifs <;> omega
  refine { h with len := by simp [h.len], low := by simpa using h.low, heap := fun j hj => ?_, cut := ?_ }
  · by_cases hij : id = j
    · subst hij
      simp only [getElem?_modify_eq, h.heap _ hj, Option.map_map]
      congr 1
      funext W
      simp only [Function.comp, mapSegs_mapSegs]
      congr 1
      funext s
      exact (hf s).symm
    · have hne : shiftId N id ≠ shiftId N j := fun hc => hij (shiftId_inj hc)
      simp only [getElem?_modify_ne _ _ hij, getElem?_modify_ne _ _ hne, h.heap _ hj]
  · obtain ⟨W, Wi, Wo, h1, h2, h3, h4⟩ := h.cut
    exact ⟨W, Wi, Wo, by simp only [getElem?_modify_ne _ _ hid, h1], by simp only [getElem?_modify_ne _ _ hs, h2],
      by simp only [getElem?_modify_ne _ _ hs', h3], h4⟩

/-- a change of the wing and its two pieces -/
theorem PlaneCut.modify_cut {p p' : Plane} (h : PlaneCut N x w w' p p') (f g k : Seg → Seg)
    (hf : ∀ s i o, CutSeg N x s i o → CutSeg N x (f s) (g i) (k o)) :
    PlaneCut N x w w' { p with heap := p.heap.modify N (·.mapSegs f) }
      { p' with heap := (p'.heap.modify N (·.mapSegs g)).modify (N + 1) (·.mapSegs k) } := by
  refine { h with len := by simp [h.len], low := by simpa using h.low, heap := fun j hj => ?_, cut := ?_ }
  · have h1 : N ≠ shiftId N j := by unfold shiftId; split_ifs <;> omega
    have h2 : N + 1 ≠ shiftId N j := by unfold shiftId; split_ifs <;> omega
    simp only [getElem?_modify_ne _ _ hj.symm, getElem?_modify_ne _ _ h1, getElem?_modify_ne _ _ h2, h.heap _ hj]
  · obtain ⟨W, Wi, Wo, h1, h2, h3, h4⟩ := h.cut
    refine ⟨W.mapSegs f, Wi.mapSegs g, Wo.mapSegs k, ?_, ?_, ?_, h4.map hf⟩
    · simp only [getElem?_modify_eq, h1, Option.map_some]
    · simp only [getElem?_modify_ne _ _ (show N + 1 ≠ N by omega), getElem?_modify_eq, h2, Option.map_some]
    · simp only [getElem?_modify_eq, getElem?_modify_ne _ _ (show N ≠ N + 1 by omega), h3, Option.map_some]

theorem PlaneCut.run {p p' : Plane} (h : PlaneCut N x w w' p p') (hw : w ≠ "") (hw' : w' ≠ "") (op : PlaneOp)
    (hop : CutCalls N w w' [op]) : PlaneCut N x w w' (op.run p) (runOps p' (op.cut N w w' x)) := by
  cases op with
  | addWing nm parent location side d =>
    obtain ⟨n1, n2, n3⟩ := hop.names nm parent location side d (by simp)
    simp only [PlaneOp.cut, runOps, List.foldl_cons, List.foldl_nil, PlaneOp.run, addWing_eq]
    cases hmk : mkWing nm side d with
    | error e => exact h
    | ok W =>
      simp only
      have hlen := h.len
      have hsl : shiftId N p.heap.length = p'.heap.length := by rw [shiftId_ge h.low.le, hlen]
      have hget : ∀ k, k ≠ w → k ≠ w' → dictGet (dictSet p'.wings nm p'.heap.length) k =
          (dictGet (dictSet p.wings nm p.heap.length) k).map (shiftId N) := by
        intro k k1 k2
        rw [dictGet_dictSet, dictGet_dictSet]
        split_ifs
        · simp [hsl]
        · exact h.get k k1 k2
      have ht : targetOf (dictSet p'.wings nm p'.heap.length) (if parent = some w then some w' else parent) =
          (targetOf (dictSet p.wings nm p.heap.length) parent).map (Parent.ren (shiftId N)) := by
        by_cases hpw : parent = some w
        · subst hpw
          rw [if_pos rfl]
          unfold targetOf
          simp only [dictGet_ne _ _ n1.symm, dictGet_ne _ _ n2.symm, h.own.1, h.new.2, Except.map, Parent.ren, shiftId_ge le_rfl]
        · rw [if_neg hpw]
          refine targetOf_ren (ws := dictSet p.wings nm p.heap.length) (shiftId N) parent fun k hk => hget k ?_ ?_
          · rintro rfl; exact hpw hk
          · rintro rfl; exact n3 hk
      have hheap : ∀ V V' : Wing, V' = V.mapSegs (Seg.ren (shiftId N)) → ∀ j, j ≠ N →
          (p'.heap ++ [V'])[shiftId N j]? = ((p.heap ++ [V])[j]?).map (Wing.mapSegs (Seg.ren (shiftId N))) := by
        intro V V' hV j hj
        have hlow := h.low
        rcases lt_trichotomy j p.heap.length with hi | hi | hi
        · rw [List.getElem?_append_left (by rw [hlen]; unfold shiftId; split_ifs <;> omega), List.getElem?_append_left hi, h.heap j hj]
        · subst hi
          rw [hsl, List.getElem?_append_right le_rfl, List.getElem?_append_right le_rfl]
          simp [hV]
        · rw [List.getElem?_eq_none (by simp; rw [hlen]; unfold shiftId; split_ifs <;> omega),
            List.getElem?_eq_none (by simp; omega)]
          rfl
      have hcut : ∀ V V' : Wing, ∃ W Wi Wo, (p.heap ++ [V])[N]? = some W ∧ (p'.heap ++ [V'])[N]? = some Wi ∧
          (p'.heap ++ [V'])[N + 1]? = some Wo ∧ CutWing N x W Wi Wo := by
        intro V V'
        obtain ⟨W, Wi, Wo, h1, h2, h3, h4⟩ := h.cut
        have := h.low
        exact ⟨W, Wi, Wo, by rw [List.getElem?_append_left h.low, h1], by rw [List.getElem?_append_left (by omega), h2],
          by rw [List.getElem?_append_left (by omega), h3], h4⟩
      have hown : dictGet (dictSet p.wings nm p.heap.length) w = some N ∧ dictGet (dictSet p'.wings nm p'.heap.length) w = some N := by
        rw [dictGet_ne _ _ n1.symm, dictGet_ne _ _ n1.symm]; exact h.own
      have hnew : dictGet (dictSet p.wings nm p.heap.length) w' = none ∧
          dictGet (dictSet p'.wings nm p'.heap.length) w' = some (N + 1) := by
        rw [dictGet_ne _ _ n2.symm, dictGet_ne _ _ n2.symm]; exact h.new
      have honly : ∀ k, dictGet (dictSet p.wings nm p.heap.length) k = some N → k = w := by
        intro k hk
        rw [dictGet_dictSet] at hk
        split_ifs at hk with hkn
        · have := h.low
          simp at hk
          omega
        · exact h.only k hk
      rw [ht]
      cases targetOf (dictSet p.wings nm p.heap.length) parent with
      | error e =>
        exact { h with
          len := by simp [hlen, Except.map]
          low := by simp; exact h.low.le
          heap := hheap _ _ (mkWing_ren hmk _).symm
          cut := hcut _ _
          nodup := nodup_dictSet _ _ _ h.nodup
          nodup' := nodup_dictSet _ _ _ h.nodup'
          own := hown, new := hnew, only := honly, get := hget }
      | ok t =>
        exact { h with
          len := by simp [hlen, Except.map]
          low := by simp; exact h.low.le
          heap := hheap _ _ (connect_ren hmk _ t location).symm
          cut := hcut _ _
          nodup := nodup_dictSet _ _ _ h.nodup
          nodup' := nodup_dictSet _ _ _ h.nodup'
          own := hown, new := hnew, only := honly, get := hget }
  | airfoil id nm e q =>
    by_cases hid : id = N
    · subst hid
      have he := hop.airfoils nm e q (by simp)
      subst he
      simp only [PlaneOp.cut, if_true, runOps, List.foldl_cons, List.foldl_nil, PlaneOp.run, Plane.wingAirfoil]
      cases mkAirfoil nm q with
      | error er => exact h
      | ok a => exact h.modify_cut _ _ _ fun s i o hs => hs.setAirfoil a
    · simp only [PlaneOp.cut, if_neg hid, runOps, List.foldl_cons, List.foldl_nil, PlaneOp.run, Plane.wingAirfoil]
      cases mkAirfoil nm q with
      | error er => exact h
      | ok a =>
        refine h.modify_other id hid _ fun s => ?_
        simp only [Seg.setAirfoil, Seg.ren]
        split_ifs <;> rfl
  | controlSurface id q =>
    by_cases hid : id = N
    · subst hid
      simp only [PlaneOp.cut, if_true, runOps, List.foldl_cons, List.foldl_nil, PlaneOp.run, Plane.wingCtrl]
      cases ht : q.truthy with
      | false =>
        have e0 : mkCtrlSurf q = .ok {} := by unfold mkCtrlSurf; rw [ht]; rfl
        have e1 : ∀ a b, mkCtrlSurf (q.onPiece a b) = .ok {} := by
          intro a b; unfold mkCtrlSurf; rw [onPiece_truthy, ht]; rfl
        simp only [e0, e1]
        exact h.modify_cut _ _ _ fun s i o hs => { hs with surf := .inr ⟨rfl, rfl, rfl⟩ }
      | true =>
        simp only [mkCtrlSurf_onPiece q _ _ ht]
        cases mkCtrlSurf q with
        | error er => exact h
        | ok c =>
          simp only [Except.map]
          exact h.modify_cut _ _ _ fun s i o hs => { hs with surf := .inl ⟨rfl, rfl⟩ }
    · simp only [PlaneOp.cut, if_neg hid, runOps, List.foldl_cons, List.foldl_nil, PlaneOp.run, Plane.wingCtrl]
      cases mkCtrlSurf q with
      | error er => exact h
      | ok a => exact h.modify_other id hid _ fun s => rfl
  | addProp name d => exact { h with }
  | propAirfoil name af props =>
    simp only [PlaneOp.cut, runOps, List.foldl_cons, List.foldl_nil, PlaneOp.run, Plane.propAirfoil]
    cases mkAirfoil af props with
    | error er => exact h
    | ok a =>
      simp only
      cases dictGet p.props name <;> cases dictGet p'.props name <;> exact { h with }
  | cgLocation a b c =>
    exact { h with cg := by simp only [PlaneOp.run, Plane.cgLocation]; simp only [PlaneOp.cut, runOps, List.foldl_cons, List.foldl_nil, PlaneOp.run, Plane.cgLocation, h.cg] }
  | setRefLengths a b => exact { h with }

theorem PlaneCut.runOps (hw : w ≠ "") (hw' : w' ≠ "") (ops : List PlaneOp) : ∀ {p p' : Plane}, PlaneCut N x w w' p p' →
    CutCalls N w w' ops → PlaneCut N x w w' (runOps p ops) (runOps p' (ops.flatMap (PlaneOp.cut N w w' x))) := by
  induction ops with
  | nil => intro p p' h _; exact h
  | cons op t ih =>
    intro p p' h hc
    have h1 := h.run hw hw' op ⟨fun a b c d e hm => hc.names a b c d e (by simp at hm; simp [hm]),
      fun a b c hm => hc.airfoils a b c (by simp at hm; simp [hm])⟩
    have h2 := ih h1 ⟨fun a b c d e hm => hc.names a b c d e (by simp [hm]), fun a b c hm => hc.airfoils a b c (by simp [hm])⟩
    simpa [Verif.runOps, List.flatMap_cons, List.foldl_append] using h2

end Verif
