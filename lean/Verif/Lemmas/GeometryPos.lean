import Verif.Lemmas.Geometry

/-! Helper lemmas: tip positions through chains of connections. -/

namespace Verif
open V3

/-- the segment object a connection string refers to, and the tip that is asked for -/
def connTarget (p : Plane) (s : Seg) : Except PyErr (Option (Seg × TipAt)) :=
  match s.parent with
  | .none => .ok none
  | .plane => .ok none
  | .wing id => match p.heap[id]? with
    | none => .error .attribute
    | some w => match TipAt.ofStr s.connectAt with
      | .error e => .error e
      | .ok .leftTip => match w.leftSeg with
        | some q => .ok (some (q, .leftTip))
        | none => .error .attribute
      | .ok .rightTip => match w.rightSeg with
        | some q => .ok (some (q, .rightTip))
        | none => .error .attribute

/-- position the parent contributes when it is not a wing -/
def basePos (p : Plane) (s : Seg) : V3 := match s.parent with
  | .plane => p.getPosition
  | _ => 0

theorem segPos_succ (p : Plane) (f : ℕ) (s : Seg) (t : TipAt) :
    segPos p (f + 1) s t =
      match connTarget p s with
      | .error e => .error e
      | .ok none => addOff (s.tipOffset t) (basePos p s)
      | .ok (some q) => match segPos p f q.1 q.2 with
        | .error e => .error e
        | .ok v => addOff (s.tipOffset t) v := by
  rw [segPos]
  unfold connTarget basePos
  cases s.parent with
  | none => rfl
  | plane => rfl
  | wing id =>
    simp only
    cases p.heap[id]? with
    | none => rfl
    | some w =>
      simp only
      cases TipAt.ofStr s.connectAt with
      | error e => rfl
      | ok t' =>
        cases t' with
        | leftTip => simp only; cases w.leftSeg <;> rfl
        | rightTip => simp only; cases w.rightSeg <;> rfl

theorem connTarget_mem {p : Plane} {s q : Seg} {t : TipAt} (h : connTarget p s = .ok (some (q, t))) :
    ∃ id w, s.parent = .wing id ∧ p.heap[id]? = some w ∧ q ∈ w.segments ∧ TipAt.ofStr s.connectAt = .ok t ∧
      (t = .leftTip → w.leftSeg = some q) ∧ (t = .rightTip → w.rightSeg = some q) := by
  unfold connTarget at h
  split at h
  · simp at h
  · simp at h
  rename_i id hid
  split at h
  · simp at h
  rename_i w hw
  split at h
  · simp at h
  · rename_i htip
    split at h
    · rename_i q' hq'
      simp only [Except.ok.injEq, Option.some.injEq, Prod.mk.injEq] at h
      obtain ⟨rfl, rfl⟩ := h
      refine ⟨id, w, hid, hw, ?_, htip, fun _ => hq', by simp⟩
      cases w <;> simp [Wing.leftSeg] at hq' <;> simp [Wing.segments, hq']
    · simp at h
  · rename_i htip
    split at h
    · rename_i q' hq'
      simp only [Except.ok.injEq, Option.some.injEq, Prod.mk.injEq] at h
      obtain ⟨rfl, rfl⟩ := h
      refine ⟨id, w, hid, hw, ?_, htip, by simp, fun _ => hq'⟩
      cases w <;> simp [Wing.rightSeg] at hq' <;> simp [Wing.segments, hq']
    · simp at h

theorem append_inj_left {a b c : String} (h : a ++ b = a ++ c) : b = c := by
  have h1 : (a ++ b).toList = (a ++ c).toList := by rw [h]
  rw [String.toList_append, String.toList_append] at h1
  exact String.toList_injective (List.append_cancel_left h1)

theorem ofStr_left (l : String) : TipAt.ofStr ("left" ++ "_" ++ l) = if l = "tip" then .ok .leftTip else .error .runtime := by
  unfold TipAt.ofStr
  have h1 : ("left" ++ "_" ++ l = "left_tip") ↔ l = "tip" := by
    constructor
    · intro h
      exact append_inj_left (a := "left" ++ "_") (c := "tip") h
    · rintro rfl; rfl
  have h2 : "left" ++ "_" ++ l ≠ "right_tip" := by
    intro h
    have h1 : ("left" ++ "_" ++ l).toList = ("right_tip" : String).toList := by rw [h]
    simp [String.toList_append] at h1
  simp only [h1, h2, if_false]

theorem ofStr_right (l : String) : TipAt.ofStr ("right" ++ "_" ++ l) = if l = "tip" then .ok .rightTip else .error .runtime := by
  unfold TipAt.ofStr
  have h1 : ("right" ++ "_" ++ l = "right_tip") ↔ l = "tip" := by
    constructor
    · intro h
      exact append_inj_left (a := "right" ++ "_") (c := "tip") h
    · rintro rfl; rfl
  have h2 : "right" ++ "_" ++ l ≠ "left_tip" := by
    intro h
    have h1 : ("right" ++ "_" ++ l).toList = ("left_tip" : String).toList := by rw [h]
    simp [String.toList_append] at h1
  simp only [h1, h2, if_false]

theorem leftSeg_side {id : ℕ} {w : Wing} (h : WingInv id w) {q : Seg} (hq : w.leftSeg = some q) : q.side = .left := by
  cases w with
  | both l r => simp [Wing.leftSeg] at hq; subst hq; exact (h.twin _ _ rfl).lside
  | onlyLeft l => simp [Wing.leftSeg] at hq; subst hq; exact h.lside _ rfl
  | onlyRight r => simp [Wing.leftSeg] at hq

theorem rightSeg_side {id : ℕ} {w : Wing} (h : WingInv id w) {q : Seg} (hq : w.rightSeg = some q) : q.side = .right := by
  cases w with
  | both l r => simp [Wing.rightSeg] at hq; subst hq; exact (h.twin _ _ rfl).rside
  | onlyLeft l => simp [Wing.rightSeg] at hq
  | onlyRight r => simp [Wing.rightSeg] at hq; subst hq; exact h.rside _ rfl

theorem seg_of_side {id : ℕ} {w : Wing} (h : WingInv id w) {s : Seg} (hs : s ∈ w.segments) :
    (s.side = .left → w.leftSeg = some s) ∧ (s.side = .right → w.rightSeg = some s) := by
  cases w with
  | both l r =>
    have ht := h.twin _ _ rfl
    simp [Wing.segments] at hs
    rcases hs with rfl | rfl
    · simp [Wing.leftSeg, ht.lside]
    · simp [Wing.rightSeg, ht.rside]
  | onlyLeft l =>
    simp [Wing.segments] at hs; subst hs
    simp [Wing.leftSeg, h.lside _ rfl]
  | onlyRight r =>
    simp [Wing.segments] at hs; subst hs
    simp [Wing.rightSeg, h.rside _ rfl]

/-- the tip a segment is connected to is on its own side -/
theorem connTarget_side {p : Plane} (hp : PlaneInv p) {b : ℕ} {w : Wing} (hb : p.heap[b]? = some w) {s : Seg}
    (hs : s ∈ w.segments) {q : Seg} {t : TipAt} (h : connTarget p s = .ok (some (q, t))) :
    q.side = s.side ∧ (s.side = .left → t = .leftTip) ∧ (s.side = .right → t = .rightTip) := by
  obtain ⟨id, w', hpar, hw', hq, htip, hl, hr⟩ := connTarget_mem h
  obtain ⟨loc, hloc⟩ := (hp.wing b w hb).connect s hs (by rw [hpar]; simp)
  rw [hloc] at htip
  cases hside : s.side with
  | left =>
    rw [hside] at htip
    simp only [Side.str] at htip
    rw [ofStr_left] at htip
    split at htip
    · have := Except.ok.inj htip; subst this
      exact ⟨leftSeg_side (hp.wing id w' hw') (hl rfl), by simp, by simp⟩
    · simp at htip
  | right =>
    rw [hside] at htip
    simp only [Side.str] at htip
    rw [ofStr_right] at htip
    split at htip
    · have := Except.ok.inj htip; subst this
      exact ⟨rightSeg_side (hp.wing id w' hw') (hr rfl), by simp, by simp⟩
    · simp at htip

/-- a segment connected to its own wing asks itself -/
theorem connTarget_self {p : Plane} (hp : PlaneInv p) {b : ℕ} {w : Wing} (hb : p.heap[b]? = some w) {s : Seg}
    (hs : s ∈ w.segments) (hpar : s.parent = .wing b) {q : Seg} {t : TipAt} (h : connTarget p s = .ok (some (q, t))) :
    q = s := by
  obtain ⟨id, w', hpar', hw', hq, htip, hl, hr⟩ := connTarget_mem h
  have hid : id = b := by rw [hpar] at hpar'; simpa using hpar'.symm
  subst hid
  have hww : w' = w := by rw [hb] at hw'; simpa using hw'.symm
  subst hww
  obtain ⟨h1, h2, h3⟩ := connTarget_side hp hb hs h
  obtain ⟨h4, h5⟩ := seg_of_side (hp.wing id w' hb) hs
  cases hside : s.side with
  | left =>
    have := hl (h2 hside)
    rw [h4 hside] at this; simpa using this.symm
  | right =>
    have := hr (h3 hside)
    rw [h5 hside] at this; simpa using this.symm

/-- Recursion depth `b + 1` is enough for a segment of wing object `b`. -/
theorem segPos_fuel {p : Plane} (hp : PlaneInv p) : ∀ (b : ℕ) {w : Wing}, p.heap[b]? = some w → ∀ {s : Seg},
    s ∈ w.segments → ∀ (t : TipAt) (f : ℕ), b + 1 ≤ f → segPos p f s t = segPos p (b + 1) s t := by
  intro b
  induction b using Nat.strong_induction_on with
  | _ b ih =>
    intro w hb s hs t f hf
    obtain ⟨f, rfl⟩ : ∃ f', f = f' + 1 := ⟨f - 1, by omega⟩
    rw [segPos_succ, segPos_succ]
    cases hc : connTarget p s with
    | error e => rfl
    | ok o =>
      cases o with
      | none => rfl
      | some qt =>
        obtain ⟨q, t'⟩ := qt
        simp only
        obtain ⟨id, w', hpar, hw', hq, htip, hl, hr⟩ := connTarget_mem hc
        have hle := (hp.wing b w hb).parent_le s hs id hpar
        rcases Nat.lt_or_ge id b with hlt | hge
        · rw [ih id hlt hw' hq t' f (by omega), ih id hlt hw' hq t' b (by omega)]
        · have hid : id = b := by omega
          subst hid
          have hqs := connTarget_self hp hb hs hpar hc
          subst hqs
          have hrec : ∀ f t', segPos p f q t' = .error .recursion := by
            intro f
            induction f with
            | zero => intro t'; rfl
            | succ f ihf =>
              intro t'
              rw [segPos_succ, hc]
              simp only [ihf]
          rw [hrec, hrec]

theorem segPosition_succ {p : Plane} (hp : PlaneInv p) {b : ℕ} {w : Wing} (hb : p.heap[b]? = some w) {s : Seg}
    (hs : s ∈ w.segments) (t : TipAt) :
    p.segPosition s t =
      match connTarget p s with
      | .error e => .error e
      | .ok none => addOff (s.tipOffset t) (basePos p s)
      | .ok (some q) => match p.segPosition q.1 q.2 with
        | .error e => .error e
        | .ok v => addOff (s.tipOffset t) v := by
  have hlt : b < p.heap.length := by
    by_contra hcon
    rw [List.getElem?_eq_none (by omega)] at hb; simp at hb
  have h1 : p.segPosition s t = segPos p (p.heap.length + 1 + 1) s t := by
    unfold Plane.segPosition
    rw [segPos_fuel hp b hb hs t _ (by omega), ← segPos_fuel hp b hb hs t (p.heap.length + 1 + 1) (by omega)]
  rw [h1, segPos_succ]
  rfl

theorem mem_heap_lt {p : Plane} {b : ℕ} {w : Wing} (hb : p.heap[b]? = some w) : b < p.heap.length := by
  by_contra hcon
  rw [List.getElem?_eq_none (by omega)] at hb; simp at hb

/-- every deeper recursion gives the same result -/
theorem segPos_position {p : Plane} (hp : PlaneInv p) {b : ℕ} {w : Wing} (hb : p.heap[b]? = some w) {s : Seg}
    (hs : s ∈ w.segments) (t : TipAt) {f : ℕ} (hf : p.heap.length ≤ f) : segPos p f s t = p.segPosition s t := by
  have := mem_heap_lt hb
  unfold Plane.segPosition
  rw [segPos_fuel hp b hb hs t f (by omega), segPos_fuel hp b hb hs t (p.heap.length + 1) (by omega)]

theorem mem_plane_segments {p : Plane} {s : Seg} (h : s ∈ p.segments) :
    ∃ (b : ℕ) (w : Wing), p.heap[b]? = some w ∧ s ∈ w.segments := by
  rw [segments_eq, List.mem_flatMap] at h
  obtain ⟨w, hw, hs⟩ := h
  simp only [Plane.wingList, List.mem_filterMap] at hw
  obtain ⟨kv, _, hkv⟩ := hw
  exact ⟨kv.2, w, hkv, hs⟩

end Verif
