import Verif.Spec.Halves
import Verif.Lemmas.Relabel
import Verif.Lemmas.CutPlane

/-! Helper lemmas: aircraft that differ in whether one wing was added with both sides or as two one-sided wings. -/

namespace Verif
open V3

/-- the object a segment on the given side finds in place of object `j` when object `N` has become two -/
def sideId (N : ℕ) : Side → ℕ → ℕ
  | .left, j => if j ≤ N then j else j + 1
  | .right, j => if j < N then j else j + 1

theorem sideId_ne {N j : ℕ} (h : j ≠ N) (sd : Side) : sideId N sd j = shiftId N j := by
  cases sd <;> unfold sideId shiftId <;> simp only <;> split_ifs <;> omega

def Seg.hren (N : ℕ) (s : Seg) : Seg := { s with parent := s.parent.ren (sideId N s.side) }

/-- what the entries of the dictionary of wings become -/
def halfEntry (N : ℕ) (w w' : String) (kv : String × ℕ) : List (String × ℕ) :=
  if kv.1 = w then [(w, N), (w', N + 1)] else [(kv.1, shiftId N kv.2)]

structure PlaneHalf (N : ℕ) (w w' : String) (p p' : Plane) : Prop where
  len : p'.heap.length = p.heap.length + 1
  low : N < p.heap.length
  heap : ∀ j, j ≠ N → p'.heap[shiftId N j]? = (p.heap[j]?).map (Wing.mapSegs (Seg.hren N))
  cut : ∃ l r, p.heap[N]? = some (.both l r) ∧ p'.heap[N]? = some (.onlyLeft (l.hren N)) ∧
    p'.heap[N + 1]? = some (.onlyRight { r.hren N with name := "right_" ++ w' })
  mem : ∀ kv ∈ p.wings, kv.1 = w ↔ kv.2 = N
  own : dictGet p.wings w = some N
  new : dictGet p.wings w' = none
  wings : p'.wings = p.wings.flatMap (halfEntry N w w')
  props : p'.props = p.props
  cg : p'.cg = p.cg
  position : p'.position = p.position
  latRef : p'.latRef = p.latRef
  longRef : p'.longRef = p.longRef
  units : p'.units = p.units

variable {N : ℕ} {w w' : String}

/-! ### Dictionaries -/

theorem dictSet_half {d : List (String × ℕ)} {nm : String} {i : ℕ} (h1 : nm ≠ w) (h2 : nm ≠ w') :
    (dictSet d nm i).flatMap (halfEntry N w w') = dictSet (d.flatMap (halfEntry N w w')) nm (shiftId N i) := by
  induction d with
  | nil => simp [dictSet, halfEntry, h1]
  | cons kv t ih =>
    obtain ⟨k, v⟩ := kv
    by_cases hk : k = nm
    · subst hk
      simp [dictSet, halfEntry, h1]
    · by_cases hw : k = w
      · subst hw
        simp [dictSet, halfEntry, hk, h2.symm, ih]
      · simp [dictSet, halfEntry, hk, hw, ih]

theorem dictGet_half {d : List (String × ℕ)} {k : String} (h1 : k ≠ w) (h2 : k ≠ w') :
    dictGet (d.flatMap (halfEntry N w w')) k = (dictGet d k).map (shiftId N) := by
  induction d with
  | nil => rfl
  | cons kv t ih =>
    obtain ⟨k', v⟩ := kv
    by_cases hw : k' = w
    · subst hw
      simp [dictGet, halfEntry, h1.symm, h2.symm, ih]
    · by_cases hk : k' = k
      · simp [dictGet, halfEntry, hw, hk, h1]
      · simp [dictGet, halfEntry, hw, hk, ih]

theorem dictGet_half_own {d : List (String × ℕ)} (hww : w ≠ w') (h : dictGet d w = some N) (hn : dictGet d w' = none) :
    dictGet (d.flatMap (halfEntry N w w')) w = some N ∧ dictGet (d.flatMap (halfEntry N w w')) w' = some (N + 1) := by
  induction d with
  | nil => simp [dictGet] at h
  | cons kv t ih =>
    obtain ⟨k', v⟩ := kv
    by_cases hw : k' = w
    · subst hw
      simp [dictGet, halfEntry, hww]
    · by_cases hw' : k' = w'
      · simp [dictGet, hw'] at hn
      · simp only [dictGet, hw, hw', if_false] at h hn
        simpa [dictGet, halfEntry, hw, hw'] using ih h hn

theorem targetOf_other {ws : List (String × ℕ)} {k : String} {v : ℕ} {parent : Option String} (h : parent ≠ some k) :
    targetOf (dictSet ws k v) parent = targetOf ws parent := by
  unfold targetOf
  match parent, h with
  | none, _ => rfl
  | some q, h =>
    by_cases hq : q = ""
    · subst hq; rfl
    · simp only
      rw [dictGet_ne _ _ (fun e => h (by rw [e]))]

theorem targetOf_congr {ws ws' : List (String × ℕ)} {parent parent' : Option String} (π : ℕ → ℕ)
    (h0 : parent = none → parent' = none) (h1 : parent = some "" → parent' = some "")
    (h2 : ∀ q, parent = some q → q ≠ "" → ∃ q', parent' = some q' ∧ q' ≠ "" ∧ dictGet ws' q' = (dictGet ws q).map π) :
    targetOf ws' parent' = (targetOf ws parent).map (Parent.ren π) := by
  match parent with
  | none => rw [h0 rfl]; rfl
  | some q =>
    by_cases hq : q = ""
    · subst hq; rw [h1 rfl]; rfl
    · obtain ⟨q', e, hq', hg⟩ := h2 q rfl hq
      subst e
      unfold targetOf
      simp only [hg]
      cases dictGet ws q <;> rfl

/-! ### Calls after the wing was added -/

/-- a change of one object other than `N` that does not touch connections -/
theorem PlaneHalf.modify_other {p p' : Plane} (h : PlaneHalf N w w' p p') (id : ℕ) (hid : id ≠ N) (f : Seg → Seg)
    (hf : ∀ s, (f s).hren N = f (s.hren N)) :
    PlaneHalf N w w' { p with heap := p.heap.modify id (·.mapSegs f) }
      { p' with heap := p'.heap.modify (shiftId N id) (·.mapSegs f) } := by
  have hs : shiftId N id ≠ N := by unfold shiftId; split_ifs <;> omega
  have hs' : shiftId N id ≠ N + 1 := by unfold shiftId; split_ifs <;> omega
  refine { h with len := by simp [h.len], low := by simpa using h.low, heap := fun j hj => ?_, cut := ?_ }
  · by_cases hij : id = j
    · subst hij
      simp only [getElem?_modify_eq, h.heap _ hj, Option.map_map]
      congr 1
      funext W
      simp only [Function.comp, mapSegs_mapSegs]
      congr 1
      funext s
      exact (hf s).symm
    · have hne : shiftId N id ≠ shiftId N j := fun hc => hij (shiftId_inj hc)
      simp only [getElem?_modify_ne _ _ hij, getElem?_modify_ne _ _ hne, h.heap _ hj]
  · obtain ⟨l, r, h1, h2, h3⟩ := h.cut
    exact ⟨l, r, by simp only [getElem?_modify_ne _ _ hid, h1], by simp only [getElem?_modify_ne _ _ hs, h2],
      by simp only [getElem?_modify_ne _ _ hs', h3]⟩

/-- a change of the wing and its two halves -/
theorem PlaneHalf.modify_cut {p p' : Plane} (h : PlaneHalf N w w' p p') (f : Seg → Seg)
    (hf : ∀ s, (f s).hren N = f (s.hren N)) (hn : ∀ s nm, { f s with name := nm } = f { s with name := nm }) :
    PlaneHalf N w w' { p with heap := p.heap.modify N (·.mapSegs f) }
      { p' with heap := (p'.heap.modify N (·.mapSegs f)).modify (N + 1) (·.mapSegs f) } := by
  refine { h with len := by simp [h.len], low := by simpa using h.low, heap := fun j hj => ?_, cut := ?_ }
  · have h1 : N ≠ shiftId N j := by unfold shiftId; split_ifs <;> omega
    have h2 : N + 1 ≠ shiftId N j := by unfold shiftId; split_ifs <;> omega
    simp only [getElem?_modify_ne _ _ hj.symm, getElem?_modify_ne _ _ h1, getElem?_modify_ne _ _ h2, h.heap _ hj]
  · obtain ⟨l, r, h1, h2, h3⟩ := h.cut
    refine ⟨f l, f r, ?_, ?_, ?_⟩
    · simp only [getElem?_modify_eq, h1, Option.map_some, Wing.mapSegs]
    · simp only [getElem?_modify_ne _ _ (show N + 1 ≠ N by omega), getElem?_modify_eq, h2, Option.map_some, Wing.mapSegs, hf]
    · simp only [getElem?_modify_eq, getElem?_modify_ne _ _ (show N ≠ N + 1 by omega), h3, Option.map_some, Wing.mapSegs, hf, hn]

theorem hren_unconnected {name side : String} {d : WingDims} {W : Wing} (h : mkWing name side d = .ok W) :
    W.mapSegs (Seg.hren N) = W := by
  unfold mkWing at h
  split_ifs at h <;> (have := (Except.ok.inj h).symm; subst this; rfl)

theorem PlaneHalf.run {p p' : Plane} (h : PlaneHalf N w w' p p') (hw : w ≠ "") (hw' : w' ≠ "") (hww : w ≠ w') (op : PlaneOp)
    (hop : HalfCalls w w' [op]) : PlaneHalf N w w' (op.run p) (runOps p' (op.halve N w w')) := by
  cases op with
  | addWing nm parent location side d =>
    obtain ⟨n1, n2, n3⟩ := hop.names nm parent location side d (by simp)
    have n4 : side = "both" → parent ≠ some w := by
      rintro rfl rfl
      exact hop.oneSided nm location d (by simp)
    simp only [PlaneOp.halve, runOps, List.foldl_cons, List.foldl_nil, PlaneOp.run, addWing_eq]
    cases hmk : mkWing nm side d with
    | error e => exact h
    | ok W =>
      simp only
      have hlen := h.len
      have hlow := h.low
      have hsl : shiftId N p.heap.length = p'.heap.length := by rw [shiftId_ge h.low.le, hlen]
      have hwings : dictSet p'.wings nm p'.heap.length = (dictSet p.wings nm p.heap.length).flatMap (halfEntry N w w') := by
        rw [dictSet_half n1 n2, h.wings, hsl]
      have hmem : ∀ kv ∈ dictSet p.wings nm p.heap.length, kv.1 = w ↔ kv.2 = N := by
        intro kv hkv
        rcases mem_dictSet hkv with hkv | rfl
        · exact h.mem kv hkv
        · constructor
          · intro e; exact absurd e n1
          · intro e; exact absurd e (show p.heap.length ≠ N by omega)
      have hown : dictGet (dictSet p.wings nm p.heap.length) w = some N := by rw [dictGet_ne _ _ n1.symm]; exact h.own
      have hnew : dictGet (dictSet p.wings nm p.heap.length) w' = none := by rw [dictGet_ne _ _ n2.symm]; exact h.new
      -- what the new wing finds
      have hget : ∀ sd k, k ≠ w → k ≠ w' → dictGet (dictSet p'.wings nm p'.heap.length) k =
          (dictGet (dictSet p.wings nm p.heap.length) k).map (sideId N sd) := by
        intro sd k k1 k2
        rw [hwings, dictGet_half k1 k2]
        cases hd : dictGet (dictSet p.wings nm p.heap.length) k with
        | none => rfl
        | some j =>
          have : j ≠ N := fun e => k1 ((hmem _ (dictGet_mem hd)).2 e)
          simp [sideId_ne this]
      obtain ⟨g1, g2⟩ := dictGet_half_own (N := N) hww hown hnew
      rw [← hwings] at g1 g2
      have htarget : ∀ sd : Side, (side = "left" ∧ sd = .left) ∨ (side = "right" ∧ sd = .right) ∨ side = "both" →
          targetOf (dictSet p'.wings nm p'.heap.length) (if parent = some w ∧ side = "right" then some w' else parent) =
          (targetOf (dictSet p.wings nm p.heap.length) parent).map (Parent.ren (sideId N sd)) := by
        intro sd hsd
        apply targetOf_congr
        · rintro rfl; simp
        · rintro rfl; simp [hw.symm]
        · rintro q rfl hq
          by_cases hqw : q = w
          · subst hqw
            rcases hsd with ⟨rfl, rfl⟩ | ⟨rfl, rfl⟩ | rfl
            · exact ⟨q, by simp, hq, by rw [g1, hown]; simp [sideId]⟩
            · exact ⟨w', by simp, hw', by rw [g2, hown]; simp [sideId]⟩
            · exact absurd rfl (n4 rfl)
          · refine ⟨q, by simp [hqw], hq, hget sd q hqw ?_⟩
            rintro rfl; exact n3 rfl
      have hV : ∀ t t', targetOf (dictSet p.wings nm p.heap.length) parent = .ok t →
          targetOf (dictSet p'.wings nm p'.heap.length) (if parent = some w ∧ side = "right" then some w' else parent) = .ok t' →
          W.mapSegs (·.connectTo t' location) = (W.mapSegs (·.connectTo t location)).mapSegs (Seg.hren N) := by
        intro t t' ht ht'
        have hc : ∀ sd : Side, (side = "left" ∧ sd = .left) ∨ (side = "right" ∧ sd = .right) ∨ side = "both" →
            t' = t.ren (sideId N sd) := by
          intro sd hsd
          have := htarget sd hsd
          rw [ht, ht'] at this
          exact Except.ok.inj this
        unfold mkWing at hmk
        split_ifs at hmk with s1 s2 s3 <;> (have e := (Except.ok.inj hmk).symm; subst e)
        · simp only [Wing.mapSegs, Seg.connectTo, Seg.hren, mkSeg, ← hc .left (.inr (.inr s1)), ← hc .right (.inr (.inr s1))]
        · simp only [Wing.mapSegs, Seg.connectTo, Seg.hren, mkSeg, ← hc .right (.inr (.inl ⟨s2, rfl⟩))]
        · simp only [Wing.mapSegs, Seg.connectTo, Seg.hren, mkSeg, ← hc .left (.inl ⟨s3, rfl⟩)]
      have hsome : ∃ sd : Side, (side = "left" ∧ sd = .left) ∨ (side = "right" ∧ sd = .right) ∨ side = "both" := by
        unfold mkWing at hmk
        split_ifs at hmk with s1 s2 s3
        · exact ⟨.left, .inr (.inr s1)⟩
        · exact ⟨.right, .inr (.inl ⟨s2, rfl⟩)⟩
        · exact ⟨.left, .inl ⟨s3, rfl⟩⟩
      have hheap : ∀ V V' : Wing, V' = V.mapSegs (Seg.hren N) → ∀ j, j ≠ N →
          (p'.heap ++ [V'])[shiftId N j]? = ((p.heap ++ [V])[j]?).map (Wing.mapSegs (Seg.hren N)) := by
        intro V V' hV j hj
        rcases lt_trichotomy j p.heap.length with hi | hi | hi
        · rw [List.getElem?_append_left (by rw [hlen]; unfold shiftId; split_ifs <;> omega), List.getElem?_append_left hi, h.heap j hj]
        · subst hi
          rw [hsl, List.getElem?_append_right le_rfl, List.getElem?_append_right le_rfl]
          simp [hV]
        · rw [List.getElem?_eq_none (by simp; rw [hlen]; unfold shiftId; split_ifs <;> omega),
            List.getElem?_eq_none (by simp; omega)]
          rfl
      have hcut : ∀ V V' : Wing, ∃ l r, (p.heap ++ [V])[N]? = some (.both l r) ∧ (p'.heap ++ [V'])[N]? = some (.onlyLeft (l.hren N)) ∧
          (p'.heap ++ [V'])[N + 1]? = some (.onlyRight { r.hren N with name := "right_" ++ w' }) := by
        intro V V'
        obtain ⟨l, r, h1, h2, h3⟩ := h.cut
        exact ⟨l, r, by rw [List.getElem?_append_left h.low, h1], by rw [List.getElem?_append_left (by omega), h2],
          by rw [List.getElem?_append_left (by omega), h3]⟩
      obtain ⟨sd, hsd⟩ := hsome
      have ht := htarget sd hsd
      cases hk : targetOf (dictSet p.wings nm p.heap.length) parent with
      | error e =>
        rw [hk] at ht
        rw [ht]
        exact { h with
          len := by simp [hlen, Except.map]
          low := by simp; exact h.low.le
          heap := hheap _ _ (hren_unconnected hmk).symm
          cut := hcut _ _
          mem := hmem, own := hown, new := hnew, wings := hwings }
      | ok t =>
        have hv := hV t _ hk (by rw [ht, hk]; rfl)
        rw [hk] at ht
        rw [ht]
        exact { h with
          len := by simp [hlen, Except.map]
          low := by simp; exact h.low.le
          heap := hheap _ _ hv
          cut := hcut _ _
          mem := hmem, own := hown, new := hnew, wings := hwings }
  | airfoil id nm e q =>
    have f1 : ∀ (a : Airfoil) (s : Seg), (s.setAirfoil e a).hren N = (s.hren N).setAirfoil e a := by
      intro a s
      simp only [Seg.setAirfoil, Seg.hren]
      split_ifs <;> rfl
    by_cases hid : id = N
    · subst hid
      simp only [PlaneOp.halve, if_true, runOps, List.foldl_cons, List.foldl_nil, PlaneOp.run, Plane.wingAirfoil]
      cases mkAirfoil nm q with
      | error er => exact h
      | ok a =>
        refine h.modify_cut _ (f1 a) fun s n => ?_
        simp only [Seg.setAirfoil]
        split_ifs <;> rfl
    · simp only [PlaneOp.halve, if_neg hid, runOps, List.foldl_cons, List.foldl_nil, PlaneOp.run, Plane.wingAirfoil]
      cases mkAirfoil nm q with
      | error er => exact h
      | ok a => exact h.modify_other id hid _ (f1 a)
  | controlSurface id q =>
    by_cases hid : id = N
    · subst hid
      simp only [PlaneOp.halve, if_true, runOps, List.foldl_cons, List.foldl_nil, PlaneOp.run, Plane.wingCtrl]
      cases mkCtrlSurf q with
      | error er => exact h
      | ok a => exact h.modify_cut _ (fun s => rfl) fun s n => rfl
    · simp only [PlaneOp.halve, if_neg hid, runOps, List.foldl_cons, List.foldl_nil, PlaneOp.run, Plane.wingCtrl]
      cases mkCtrlSurf q with
      | error er => exact h
      | ok a => exact h.modify_other id hid _ fun s => rfl
  | addProp name d =>
    exact { h with props := by simp only [PlaneOp.halve, runOps, List.foldl_cons, List.foldl_nil, PlaneOp.run, Plane.addProp, h.props] }
  | propAirfoil name af props =>
    simp only [PlaneOp.halve, runOps, List.foldl_cons, List.foldl_nil, PlaneOp.run, Plane.propAirfoil]
    cases mkAirfoil af props with
    | error er => exact h
    | ok a =>
      simp only [h.props]
      cases dictGet p.props name with
      | none => exact h
      | some q => exact { h with props := rfl }
  | cgLocation a b c =>
    exact { h with cg := by simp only [PlaneOp.halve, runOps, List.foldl_cons, List.foldl_nil, PlaneOp.run, Plane.cgLocation, h.cg] }
  | setRefLengths a b => exact { h with latRef := rfl, longRef := rfl }

theorem PlaneHalf.runOps (hw : w ≠ "") (hw' : w' ≠ "") (hww : w ≠ w') (ops : List PlaneOp) : ∀ {p p' : Plane}, PlaneHalf N w w' p p' →
    HalfCalls w w' ops → PlaneHalf N w w' (runOps p ops) (runOps p' (ops.flatMap (PlaneOp.halve N w w'))) := by
  induction ops with
  | nil => intro p p' h _; exact h
  | cons op t ih =>
    intro p p' h hc
    have h1 := h.run hw hw' hww op ⟨fun a b c d e hm => hc.names a b c d e (by simp at hm; simp [hm]),
      fun a b c hm => hc.oneSided a b c (by simp at hm; simp [hm])⟩
    have h2 := ih h1 ⟨fun a b c d e hm => hc.names a b c d e (by simp [hm]), fun a b c hm => hc.oneSided a b c (by simp [hm])⟩
    simpa [Verif.runOps, List.flatMap_cons, List.foldl_append] using h2

/-! ### Adding the wing -/

theorem hren_low {p : Plane} (hp : PlaneInv p) {j : ℕ} {W : Wing} (hj : p.heap[j]? = some W) (hN : N = p.heap.length) :
    W.mapSegs (Seg.hren N) = W := by
  have key : ∀ s ∈ W.segments, s.hren N = s := by
    intro s hs
    unfold Seg.hren
    have : s.parent.ren (sideId N s.side) = s.parent := by
      cases hpar : s.parent with
      | none => rfl
      | plane => rfl
      | wing i =>
        have h1 := (hp.wing j W hj).parent_le s hs i hpar
        have h2 := mem_heap_lt hj
        rw [Parent.ren, sideId_ne (by omega), shiftId_lt (by omega)]
    rw [this]
  cases W with
  | both l r => simp only [Wing.mapSegs, key l (by simp [Wing.segments]), key r (by simp [Wing.segments])]
  | onlyLeft l => simp only [Wing.mapSegs, key l (by simp [Wing.segments])]
  | onlyRight r => simp only [Wing.mapSegs, key r (by simp [Wing.segments])]

theorem half_add {p : Plane} (hp : PlaneInv p) (hww : w ≠ w') (h1 : dictGet p.wings w = none) (h2 : dictGet p.wings w' = none)
    {parent : Option String} {location : String} {d : WingDims} (hpar : parent ≠ some w) (hpar' : parent ≠ some w') :
    PlaneHalf p.heap.length w w' ((PlaneOp.addWing w parent location "both" d).run p)
      (runOps p [.addWing w parent location "left" d, .addWing w' parent location "right" d]) := by
  have hmemw : ∀ (ws : List (String × ℕ)) (k : String) (i : ℕ), dictGet ws k = none → dictSet ws k i = ws ++ [(k, i)] := by
    intro ws k i
    induction ws with
    | nil => intro _; rfl
    | cons kv t ih =>
      obtain ⟨k', v⟩ := kv
      intro hk
      by_cases hkk : k' = k
      · simp [dictGet, hkk] at hk
      · simp only [dictGet, hkk, if_false] at hk
        simp [dictSet, hkk, ih hk]
  have hkey : ∀ kv ∈ p.wings, kv.1 ≠ w := by
    intro kv hkv e
    have : ∀ ws : List (String × ℕ), kv ∈ ws → dictGet ws w ≠ none := by
      intro ws
      induction ws with
      | nil => simp
      | cons a t ih =>
        obtain ⟨k', v⟩ := a
        intro hm
        by_cases hk : k' = w
        · simp [dictGet, hk]
        · simp only [dictGet, hk, if_false]
          rcases List.mem_cons.1 hm with rfl | hm
          · exact absurd e hk
          · exact ih hm
    exact this _ hkv h1
  have hmap : ∀ ws : List (String × ℕ), (∀ kv ∈ ws, kv.1 ≠ w ∧ kv.2 < p.heap.length) →
      ws.flatMap (halfEntry p.heap.length w w') = ws := by
    intro ws
    induction ws with
    | nil => intro _; rfl
    | cons a t ih =>
      intro hm
      obtain ⟨k, v⟩ := a
      obtain ⟨m1, m2⟩ := hm (k, v) (by simp)
      simp only at m1 m2
      rw [List.flatMap_cons, ih fun kv hkv => hm kv (by simp [hkv])]
      simp [halfEntry, m1, shiftId_lt m2]
  have hmap' := hmap p.wings fun kv hkv => ⟨hkey kv hkv, hp.ids kv hkv⟩
  have hd1 : dictSet p.wings w p.heap.length = p.wings ++ [(w, p.heap.length)] := hmemw _ _ _ h1
  have hd2 : dictSet (dictSet p.wings w p.heap.length) w' (p.heap.length + 1) =
      p.wings ++ [(w, p.heap.length), (w', p.heap.length + 1)] := by
    rw [hmemw _ _ _ (by rw [dictGet_ne _ _ hww.symm]; exact h2), hd1]
    simp
  have hdict : (dictSet p.wings w p.heap.length).flatMap (halfEntry p.heap.length w w') =
      dictSet (dictSet p.wings w p.heap.length) w' (p.heap.length + 1) := by
    rw [hd2, hd1, List.flatMap_append, hmap']
    simp [halfEntry]
  have hmem : ∀ kv ∈ dictSet p.wings w p.heap.length, kv.1 = w ↔ kv.2 = p.heap.length := by
    intro kv hkv
    rw [hd1] at hkv
    rcases List.mem_append.1 hkv with hkv | hkv
    · constructor
      · intro e; exact absurd e (hkey kv hkv)
      · intro e; have := hp.ids kv hkv; omega
    · simp at hkv; subst hkv; simp
  have hheap : ∀ V V1 V2 : Wing, ∀ j, j ≠ p.heap.length → (p.heap ++ [V1] ++ [V2])[shiftId p.heap.length j]? =
      ((p.heap ++ [V])[j]?).map (Wing.mapSegs (Seg.hren p.heap.length)) := by
    intro V V1 V2 j hj
    rcases lt_or_gt_of_ne hj with hj | hj
    · rw [shiftId_lt hj, List.getElem?_append_left (by simp; omega), List.getElem?_append_left (by omega), List.getElem?_append_left (by omega)]
      cases hh : p.heap[j]? with
      | none => rfl
      | some W => rw [Option.map_some, hren_low hp hh rfl]
    · rw [shiftId_ge hj.le, List.getElem?_eq_none (by simp; omega), List.getElem?_eq_none (by simp; omega)]
      rfl
  have e1 : mkWing w "both" d = .ok (.both (mkSeg ("left_" ++ w) .left d) (mkSeg ("right_" ++ w) .right d)) := rfl
  have e2 : mkWing w "left" d = .ok (.onlyLeft (mkSeg ("left_" ++ w) .left d)) := rfl
  have e3 : mkWing w' "right" d = .ok (.onlyRight (mkSeg ("right_" ++ w') .right d)) := rfl
  simp only [Verif.runOps, List.foldl_cons, List.foldl_nil, PlaneOp.run, addWing_eq, e1, e2, e3, targetOf_other hpar]
  have hl : ∀ V : Wing, (p.heap ++ [V]).length = p.heap.length + 1 := by simp
  have hcut : ∀ (l r : Seg), (p.heap ++ [Wing.both l r])[p.heap.length]? = some (.both l r) ∧
      ∀ V1 V2 : Wing, (p.heap ++ [V1] ++ [V2])[p.heap.length]? = some V1 ∧ (p.heap ++ [V1] ++ [V2])[p.heap.length + 1]? = some V2 := by
    intro l r
    refine ⟨by simp, fun V1 V2 => ⟨?_, ?_⟩⟩
    · rw [List.getElem?_append_left (by simp)]; simp
    · rw [List.getElem?_append_right (by simp)]; simp
  cases hk : targetOf p.wings parent with
  | error e =>
    simp only [hl, targetOf_other hpar', targetOf_other hpar, hk]
    exact { len := by simp, low := by simp, heap := hheap _ _ _
            cut := ⟨_, _, (hcut _ _).1, ((hcut (mkSeg "" .right d) (mkSeg "" .right d)).2 _ _).1, ((hcut (mkSeg "" .right d) (mkSeg "" .right d)).2 _ _).2⟩
            mem := hmem, own := by rw [dictGet_dictSet, if_pos rfl], new := by rw [dictGet_ne _ _ hww.symm]; exact h2
            wings := hdict.symm, props := rfl, cg := rfl, position := rfl, latRef := rfl, longRef := rfl, units := rfl }
  | ok t =>
    have ht : ∀ sd, t.ren (sideId p.heap.length sd) = t := by
      intro sd
      cases t with
      | none => rfl
      | plane => rfl
      | wing j =>
        have : j < p.heap.length := by
          unfold targetOf at hk
          split at hk
          · simp at hk
          · simp at hk
          · split at hk
            · rename_i i hi
              simp at hk; subst hk
              exact hp.ids _ (dictGet_mem hi)
            · simp at hk
        rw [Parent.ren, sideId_ne (by omega), shiftId_lt this]
    simp only [hl, targetOf_other hpar', targetOf_other hpar, hk]
    refine { len := by simp, low := by simp, heap := hheap _ _ _
             cut := ⟨_, _, (hcut _ _).1, ((hcut (mkSeg "" .right d) (mkSeg "" .right d)).2 _ _).1.trans ?_,
               ((hcut (mkSeg "" .right d) (mkSeg "" .right d)).2 _ _).2.trans ?_⟩
             mem := hmem, own := by rw [dictGet_dictSet, if_pos rfl], new := by rw [dictGet_ne _ _ hww.symm]; exact h2
             wings := hdict.symm, props := rfl, cg := rfl, position := rfl, latRef := rfl, longRef := rfl, units := rfl }
    · simp only [Wing.mapSegs, Seg.connectTo, Seg.hren, ht]
    · simp only [Wing.mapSegs, Seg.connectTo, Seg.hren, ht]
      rfl

/-! ### Positions and grids -/

/-- the same segment, with another name, in the other aircraft -/
def SegHalf (N : ℕ) (s s' : Seg) : Prop := s' = { s.hren N with name := s'.name }

theorem SegHalf.hren (N : ℕ) (s : Seg) : SegHalf N s (s.hren N) := rfl

/-- what a connection refers to in the other aircraft -/
theorem PlaneHalf.connTarget {p p' : Plane} (h : PlaneHalf N w w' p p') (hp : PlaneInv p) {b : ℕ} {W : Wing} (hb : p.heap[b]? = some W)
    {s s' : Seg} (hs : s ∈ W.segments) (hss : SegHalf N s s') :
    (∃ e, connTarget p s = .error e ∧ connTarget p' s' = .error e) ∨ (connTarget p s = .ok none ∧ connTarget p' s' = .ok none) ∨
    ∃ q q' t, connTarget p s = .ok (some (q, t)) ∧ connTarget p' s' = .ok (some (q', t)) ∧ SegHalf N q q' := by
  have e1 : s'.connectAt = s.connectAt := by rw [hss]; rfl
  have e2 : s'.parent = s.parent.ren (sideId N s.side) := by rw [hss]; rfl
  unfold Verif.connTarget
  rw [e1, e2]
  cases hpar : s.parent with
  | none => exact .inr (.inl ⟨rfl, rfl⟩)
  | plane => exact .inr (.inl ⟨rfl, rfl⟩)
  | wing id =>
    have hle := (hp.wing b W hb).parent_le s hs id hpar
    have hlt := mem_heap_lt hb
    obtain ⟨loc, hloc⟩ := (hp.wing b W hb).connect s hs (by rw [hpar]; simp)
    have hsome : ∃ V, p.heap[id]? = some V := ⟨_, List.getElem?_eq_getElem (by omega)⟩
    obtain ⟨V, hV⟩ := hsome
    simp only [Parent.ren, hV]
    by_cases hid : id = N
    · subst hid
      obtain ⟨l, r, c1, c2, c3⟩ := h.cut
      rw [hV] at c1
      cases c1
      cases hsd : s.side with
      | left =>
        simp only [sideId, le_refl, if_true, c2]
        rw [hloc, hsd]
        simp only [Side.str]
        rw [ofStr_left]
        split_ifs
        · exact .inr (.inr ⟨_, _, _, rfl, rfl, SegHalf.hren id l⟩)
        · exact .inl ⟨_, rfl, rfl⟩
      | right =>
        simp only [sideId, lt_irrefl, if_false, c3]
        rw [hloc, hsd]
        simp only [Side.str]
        rw [ofStr_right]
        split_ifs
        · exact .inr (.inr ⟨_, _, _, rfl, rfl, rfl⟩)
        · exact .inl ⟨_, rfl, rfl⟩
    · rw [sideId_ne hid, h.heap id hid, hV]
      simp only [Option.map_some]
      cases TipAt.ofStr s.connectAt with
      | error e => exact .inl ⟨_, rfl, rfl⟩
      | ok t =>
        cases t <;> cases V <;>
          first
          | exact .inr (.inr ⟨_, _, _, rfl, rfl, SegHalf.hren N _⟩)
          | exact .inl ⟨_, rfl, rfl⟩

theorem PlaneHalf.segPos {p p' : Plane} (h : PlaneHalf N w w' p p') (hp : PlaneInv p) : ∀ (f : ℕ) {b : ℕ} {W : Wing},
    p.heap[b]? = some W → ∀ {s s' : Seg}, s ∈ W.segments → SegHalf N s s' → ∀ t, segPos p' f s' t = segPos p f s t := by
  intro f
  induction f with
  | zero => intro b W _ s s' _ _ t; rfl
  | succ f ih =>
    intro b W hb s s' hs hss t
    have e1 : s'.tipOffset t = s.tipOffset t := by rw [hss]; rfl
    rw [segPos_succ, segPos_succ, e1]
    rcases h.connTarget hp hb hs hss with ⟨e, c1, c2⟩ | ⟨c1, c2⟩ | ⟨q, q', t', c1, c2, hq⟩
    · rw [c1, c2]
    · rw [c1, c2]
      simp only
      have : basePos p' s' = basePos p s := by
        have e2 : s'.parent = s.parent.ren (sideId N s.side) := by rw [hss]; rfl
        unfold basePos Plane.getPosition
        rw [e2, h.position]
        cases s.parent <;> rfl
      rw [this]
    · rw [c1, c2]
      simp only
      obtain ⟨id, V, -, hV, hqV, -⟩ := connTarget_mem c1
      rw [ih hV hqV hq t']

theorem PlaneHalf.segAlike {p p' : Plane} (h : PlaneHalf N w w' p p') (hp : PlaneInv p) (hp' : PlaneInv p') {b b' : ℕ} {W W' : Wing}
    (hb : p.heap[b]? = some W) (hb' : p'.heap[b']? = some W') {s s' : Seg} (hs : s ∈ W.segments) (hs' : s' ∈ W'.segments)
    (hss : SegHalf N s s') (c : Bool) : SegAlike p p' c s s' := by
  have hpos : ∀ t, p'.segPosition s' t = p.segPosition s t := by
    intro t
    rw [← segPos_position hp' hb' hs' t (show p'.heap.length ≤ p.heap.length + 1 by rw [h.len])]
    exact h.segPos hp _ hb hs hss t
  refine ⟨by rw [hss]; rfl, by rw [hss]; rfl, by rw [hss]; rfl, ?_⟩
  unfold segData
  rw [hpos, hpos]
  have f1 : s'.n = s.n := by rw [hss]; rfl
  have f2 : s'.csSpan = s.csSpan := by rw [hss]; rfl
  have f3 : s'.flapChord = s.flapChord := by rw [hss]; rfl
  have f4 : s'.covers = s.covers := by rw [hss]; rfl
  rw [f1, f2, f3, f4]
  by_cases h0 : c = true ∧ s.n = 0
  · simp only [h0, and_self, if_true]; rfl
  simp only [h0, if_false]
  cases p.segPosition s .leftTip with
  | error e => rfl
  | ok l =>
    cases p.segPosition s .rightTip with
    | error e => rfl
    | ok r =>
      simp only
      split_ifs
      · rfl
      · rfl
      · rfl
      · simp only [Except.map, Except.ok.injEq, List.map_map]
        apply List.map_congr_left
        intro i _
        rw [hss]
        rfl

theorem segments_listed (p : Plane) : p.segments = p.wings.flatMap fun kv => ((p.heap[kv.2]?).map Wing.segments).getD [] := by
  unfold Plane.segments Plane.wingList
  have : ∀ (ws : List (String × ℕ)) (acc : List Seg), (ws.filterMap fun kv => p.heap[kv.2]?).foldl (fun l w => l ++ w.segments) acc =
      acc ++ ws.flatMap fun kv => ((p.heap[kv.2]?).map Wing.segments).getD [] := by
    intro ws
    induction ws with
    | nil => intro acc; simp
    | cons kv t ih =>
      intro acc
      rw [List.filterMap_cons]
      cases hk : p.heap[kv.2]? with
      | none => simp only [List.flatMap_cons, hk]; rw [ih]; simp
      | some W => simp only [List.foldl_cons, List.flatMap_cons, hk]; rw [ih]; simp
  rw [this, List.nil_append]

theorem PlaneHalf.relabels {p p' : Plane} (h : PlaneHalf N w w' p p') (hp : PlaneInv p) (hp' : PlaneInv p') : Relabels p p' := by
  refine ⟨?_, ?_, h.props, h.cg, h.units, h.latRef, h.longRef⟩
  · rw [segments_listed, segments_listed, h.wings]
    have hmem := h.mem
    have hids := hp.ids
    generalize p.wings = ws at hmem hids
    induction ws with
    | nil => exact .nil
    | cons kv t ih =>
      rw [List.flatMap_cons, List.flatMap_cons, List.flatMap_append]
      refine List.rel_append ?_ (ih (fun kv hkv => hmem kv (by simp [hkv])) fun kv hkv => hids kv (by simp [hkv]))
      have hm := hmem kv (by simp)
      have hlt := hids kv (by simp)
      unfold halfEntry
      by_cases hk : kv.1 = w
      · rw [if_pos hk]
        have hN := hm.1 hk
        obtain ⟨l, r, c1, c2, c3⟩ := h.cut
        rw [hN]
        simp only [List.flatMap_cons, List.flatMap_nil, c1, c2, c3, Option.map_some, Option.getD_some, Wing.segments, List.cons_append,
          List.nil_append]
        refine .cons ?_ (.cons ?_ .nil)
        · exact h.segAlike hp hp' c1 c2 (by simp [Wing.segments]) (by simp [Wing.segments]) (SegHalf.hren N l) true
        · exact h.segAlike hp hp' c1 c3 (s := r) (by simp [Wing.segments]) (by simp [Wing.segments])
            (show SegHalf N r { r.hren N with name := "right_" ++ w' } from rfl) true
      · rw [if_neg hk]
        have hN : kv.2 ≠ N := fun e => hk (hm.2 e)
        have hV : p.heap[kv.2]? = some p.heap[kv.2] := List.getElem?_eq_getElem hlt
        have hV' := h.heap kv.2 hN
        rw [hV, Option.map_some] at hV'
        simp only [List.flatMap_cons, List.flatMap_nil, List.append_nil, hV, hV', Option.map_some, Option.getD_some]
        generalize p.heap[kv.2] = V at hV hV'
        cases V with
        | both l r =>
          exact .cons (h.segAlike hp hp' hV hV' (by simp [Wing.segments]) (by simp [Wing.segments, Wing.mapSegs]) (SegHalf.hren N _) true)
            (.cons (h.segAlike hp hp' hV hV' (by simp [Wing.segments]) (by simp [Wing.segments, Wing.mapSegs]) (SegHalf.hren N _) true) .nil)
        | onlyLeft l =>
          exact .cons (h.segAlike hp hp' hV hV' (by simp [Wing.segments]) (by simp [Wing.segments, Wing.mapSegs]) (SegHalf.hren N _) true) .nil
        | onlyRight r =>
          exact .cons (h.segAlike hp hp' hV hV' (by simp [Wing.segments]) (by simp [Wing.segments, Wing.mapSegs]) (SegHalf.hren N _) true) .nil
  · rw [h.wings]
    cases p.wings with
    | nil => simp
    | cons kv t => simp [halfEntry]; split_ifs <;> simp

end Verif
