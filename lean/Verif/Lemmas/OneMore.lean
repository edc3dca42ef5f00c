import Verif.Lemmas.PlaneOrder

/-! Helper lemmas: an aircraft with one more wing. -/

namespace Verif
open V3

/-- `p'` is `p` with one more wing, `W` -/
structure OneMore (p p' : Plane) (W : Wing) : Prop where
  heap : p'.heap = p.heap ++ [W]
  wings : ∃ w, p'.wings = p.wings ++ [(w, p.heap.length)]
  position : p'.getPosition = p.getPosition
  cg : p'.cg = p.cg

theorem OneMore.segments {p p' : Plane} {W : Wing} (h : OneMore p p' W) (hp : PlaneInv p) :
    p'.segments = p.segments ++ W.segments := by
  obtain ⟨w, hw⟩ := h.wings
  have e : p'.wingList = p.wingList ++ [W] := by
    unfold Plane.wingList
    rw [hw, List.filterMap_append, h.heap]
    congr 1
    · refine List.filterMap_congr fun kv hkv => ?_
      rw [List.getElem?_append_left (hp.ids kv hkv)]
    · simp
  rw [segments_eq, segments_eq, e, List.flatMap_append]
  simp

theorem OneMore.target {p p' : Plane} {W : Wing} (h : OneMore p p' W) (hp : PlaneInv p) {b : ℕ} {w : Wing} (hb : p.heap[b]? = some w)
    {s : Seg} (hs : s ∈ w.segments) : connTarget p' s = connTarget p s := by
  unfold connTarget
  cases hq : s.parent with
  | none => rfl
  | plane => rfl
  | wing id =>
    have h1 := (hp.wing b w hb).parent_le s hs id hq
    have h2 : b < p.heap.length := mem_heap_lt hb
    simp only
    rw [h.heap, List.getElem?_append_left (lt_of_le_of_lt h1 h2)]

theorem OneMore.segPos {p p' : Plane} {W : Wing} (h : OneMore p p' W) (hp : PlaneInv p) (f : ℕ) : ∀ {b : ℕ} {w : Wing},
    p.heap[b]? = some w → ∀ {s : Seg}, s ∈ w.segments → ∀ t, Verif.segPos p' f s t = Verif.segPos p f s t := by
  induction f with
  | zero => intro b w _ s _ t; rfl
  | succ f ih =>
    intro b w hb s hs t
    rw [segPos_succ, segPos_succ, h.target hp hb hs]
    have e : basePos p' s = basePos p s := by unfold basePos; rw [h.position]
    rw [e]
    cases hc : connTarget p s with
    | error e => rfl
    | ok o =>
      cases o with
      | none => rfl
      | some q =>
        obtain ⟨q, t'⟩ := q
        obtain ⟨id, w', -, hw', hq, -⟩ := connTarget_mem hc
        simp only
        rw [ih hw' hq]

theorem OneMore.segPosition {p p' : Plane} {W : Wing} (h : OneMore p p' W) (hp : PlaneInv p) (hp' : PlaneInv p') {s : Seg}
    (hs : s ∈ p.segments) (t : TipAt) : p'.segPosition s t = p.segPosition s t := by
  obtain ⟨b, w, hb, hsw⟩ := mem_plane_segments hs
  have hl := mem_heap_lt hb
  have hb' : p'.heap[b]? = some w := by rw [h.heap, List.getElem?_append_left hl, hb]
  have hlen : p'.heap.length = p.heap.length + 1 := by rw [h.heap]; simp
  rw [← segPos_position hp' hb' hsw t (f := p'.heap.length) le_rfl, h.segPos hp _ hb hsw,
    segPos_position hp hb hsw t (by omega)]

theorem OneMore.segData {p p' : Plane} {W : Wing} (h : OneMore p p' W) (hp : PlaneInv p) (hp' : PlaneInv p') {s : Seg}
    (hs : s ∈ p.segments) (c : Bool) : Verif.segData p' c s = Verif.segData p c s := by
  unfold Verif.segData
  rw [h.segPosition hp hp' hs, h.segPosition hp hp' hs]

/-- the grid of the larger aircraft: first the sections there were before, then those of the new wing -/
theorem OneMore.grids {p p' : Plane} {W : Wing} (h : OneMore p p' W) (hp : PlaneInv p) (hp' : PlaneInv p') {c : Bool} {g' : Grid}
    (hg' : mkGrid p' c = .ok g') : ∃ g, mkGrid p c = .ok g ∧
      g'.data = g.data ++ (W.segments.flatMap (segSecs p' c)).map GridSec.withIc2 := by
  have h1 : ∀ s ∈ p.segments, ∃ v, Verif.segData p c s = .ok v := fun s hs => by
    obtain ⟨v, hv⟩ := mkGrid_iff.1 ⟨g', hg'⟩ s (by rw [h.segments hp]; exact List.mem_append_left _ hs)
    exact ⟨v, by rw [← h.segData hp hp' hs, hv]⟩
  obtain ⟨g, hg⟩ := mkGrid_iff.2 h1
  refine ⟨g, hg, ?_⟩
  rw [(mkGrid_segSecs hg').1, (mkGrid_segSecs hg).1, h.segments hp, List.flatMap_append, List.map_append]
  congr 2
  refine List.flatMap_congr fun s hs => ?_
  unfold segSecs
  rw [h.segData hp hp' hs]

/-- the sections of a segment whose airfoils have no lift slope -/
theorem segSecs_flat {p : Plane} {c : Bool} {s : Seg} (hr : s.root.cla = 0) (ht : s.tip.cla = 0) {x : GridSec} (hx : x ∈ segSecs p c s) :
    x.cla = 0 ∧ x.left.cla = 0 ∧ x.right.cla = 0 := by
  unfold segSecs at hx
  cases hd : Verif.segData p c s with
  | error e => rw [hd] at hx; cases hx
  | ok v =>
    rw [hd] at hx
    simp only at hx
    unfold Verif.segData at hd
    have haf : (leftRight s.side s.root s.tip).1.cla = 0 ∧ (leftRight s.side s.root s.tip).2.cla = 0 := by
      unfold leftRight; cases s.side <;> simp [hr, ht]
    repeat' split at hd
    all_goals first | (cases hd; done) | skip
    all_goals
      cases hd
      obtain ⟨k, -, rfl⟩ := List.mem_map.1 hx
      refine ⟨?_, haf.1, haf.2⟩
      show lerp _ _ _ = 0
      rw [haf.1, haf.2]; unfold lerp; ring

end Verif
