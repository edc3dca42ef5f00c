import Verif.Lemmas.Grid

/-! Helper lemmas: two planes whose segments give corresponding data have corresponding grids. -/

namespace Verif
open V3

/-- what makes two planes have corresponding grids -/
structure GridMap (p p' : Plane) (c : Bool) (f : Seg → Seg) (F : GridSec → GridSec) (a : ℝ) : Prop where
  segments : p'.segments = p.segments.map f
  data : ∀ s ∈ p.segments, segData p' c (f s) = (segData p c s).map (·.map F)
  ic2 : ∀ g, (F g).withIc2 = F g.withIc2
  area : ∀ g, (F g).area = a * g.area
  isMain : ∀ s, (f s).isMain = s.isMain
  n : ∀ s, (f s).n = s.n

theorem GridMap.exists_iff {p p' : Plane} {c : Bool} {f : Seg → Seg} {F : GridSec → GridSec} {a : ℝ}
    (h : GridMap p p' c f F a) : (∃ g, mkGrid p c = .ok g) ↔ ∃ g', mkGrid p' c = .ok g' := by
  have ex : ∀ {q : Plane} {g : Grid}, mkGrid q c = .ok g → ∀ s ∈ q.segments, ∃ v, segData q c s = .ok v := by
    intro q g hg
    obtain ⟨vs, hvs, hrest⟩ := mkGrid_ok hg
    clear hrest
    intro s hs
    generalize q.segments = segs at hvs hs
    induction hvs with
    | nil => cases hs
    | cons hv _ ih =>
      rcases List.mem_cons.1 hs with rfl | hs
      · exact ⟨_, hv⟩
      · exact ih hs
  constructor
  · rintro ⟨g, hg⟩
    apply mkGrid_of
    rw [h.segments]
    intro s' hs'
    obtain ⟨s, hs, rfl⟩ := List.mem_map.1 hs'
    obtain ⟨v, hv⟩ := ex hg s hs
    exact ⟨v.map F, by rw [h.data s hs, hv]; rfl⟩
  · rintro ⟨g, hg⟩
    apply mkGrid_of
    intro s hs
    obtain ⟨v, hv⟩ := ex hg (f s) (by rw [h.segments]; exact List.mem_map_of_mem hs)
    rw [h.data s hs] at hv
    cases hd : segData p c s with
    | error e => rw [hd] at hv; simp [Except.map] at hv
    | ok v => exact ⟨v, rfl⟩

theorem GridMap.grids {p p' : Plane} {c : Bool} {f : Seg → Seg} {F : GridSec → GridSec} {a : ℝ}
    (h : GridMap p p' c f F a) {g g' : Grid} (hg : mkGrid p c = .ok g) (hg' : mkGrid p' c = .ok g') :
    g'.data = g.data.map F ∧ g'.slices = g.slices ∧ g'.refArea = a * g.refArea := by
  obtain ⟨vs, hvs, d1, d2, d3⟩ := mkGrid_ok hg
  obtain ⟨vs', hvs', d1', d2', d3'⟩ := mkGrid_ok hg'
  rw [h.segments] at hvs' d2' d3'
  have hd := h.data
  rw [d1, d1', d2, d2', d3, d3']
  clear d1 d1' d2 d2' d3 d3' hg hg'
  generalize p.segments = segs at *
  have hsl : ∀ (segs : List Seg) (i : ℕ), slicesFrom i (segs.map f) = slicesFrom i segs := by
    intro segs
    induction segs with
    | nil => intro i; rfl
    | cons s t ih => intro i; simp [slicesFrom, h.n, ih]
  have hlist : vs' = vs.map (·.map F) ∧ refOf (segs.map f) vs' = a * refOf segs vs := by
    induction hvs generalizing vs' with
    | nil =>
      cases hvs'
      simp [refOf]
    | @cons s v segs vs hv hvs ih =>
      cases hvs' with
      | @cons _ v' _ vs' hv' hvs' =>
        obtain ⟨e1, e2⟩ := ih vs' hvs' (fun s hs => hd s (List.mem_cons_of_mem _ hs))
        rw [hd s List.mem_cons_self, hv] at hv'
        simp only [Except.map, Except.ok.injEq] at hv'
        subst hv'
        refine ⟨by rw [e1]; rfl, ?_⟩
        simp only [List.map_cons, refOf, e2, h.isMain, List.map_map]
        rw [mul_add]
        congr 1
        split
        · rw [← List.sum_map_mul_left]
          congr 1
          apply List.map_congr_left
          intro x _
          exact h.area x
        · simp
  refine ⟨?_, hsl _ _, hlist.2⟩
  rw [hlist.1, ← List.map_flatten, List.map_map, List.map_map]
  apply List.map_congr_left
  intro x _
  exact h.ic2 x

end Verif
