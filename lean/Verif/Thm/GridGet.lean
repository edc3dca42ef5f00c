import Verif.Model.GridGet
import Verif.Thm.Grid

/-!
# C110: what the grid reports about the airfoil at a section
-/

namespace Verif
open V3

variable {nm : String} {pos : Option V3} {ops : List PlaneOp} {c : Bool} {g : Grid}

/-- The property: at every section, the drag coefficients reported are interpolated between those of the root and those of
the tip airfoil, with the distance measured from the root. -/
def DragInterpolated (p : Plane) (g : Grid) : Prop :=
  ∀ (k : ℕ) (s : Seg) (a b : ℕ), p.segments[k]? = some s → g.slices[k]? = some (a, b) → ∀ j, a ≤ j → j < b →
    ∃ t cd, g.getCpSpacing[j]? = some t ∧ g.getDragCoefficients[j]? = some cd ∧
      Interp (rootStation s.side t) s.root.cd0 s.tip.cd0 cd.1 ∧
      Interp (rootStation s.side t) s.root.cd1 s.tip.cd1 cd.2.1 ∧
      Interp (rootStation s.side t) s.root.cd2 s.tip.cd2 cd.2.2

private theorem row {k : ℕ} {s : Seg} {a b j : ℕ} (hg : mkGrid (built nm pos ops) c = .ok g)
    (hs : (built nm pos ops).segments[k]? = some s) (hab : g.slices[k]? = some (a, b)) (h1 : a ≤ j) (h2 : j < b) :
    ∃ i x, g.data[j]? = some x ∧ SectionOf (built nm pos ops) g k s i x := by
  obtain ⟨vs, hvs, e1, e2, _⟩ := mkGrid_ok hg
  obtain ⟨v, hv, _, hw, hget⟩ := slices_get _ hvs hs (e2 ▸ hab)
  obtain ⟨x, hx⟩ := sectionOf_exists hg hs (i := j - a) (by simp only at hw; omega)
  obtain ⟨_, a', b', hab', hlt, hd⟩ := hx
  have := hab.symm.trans hab'
  simp only [Option.some.injEq, Prod.mk.injEq] at this
  obtain ⟨rfl, rfl⟩ := this
  have e : a + (j - a) = j := by omega
  rw [e] at hd
  exact ⟨j - a, x, hd, hs, a, b, hab, by omega, by rw [e]; exact hd⟩

/-- Row `j` of an array is the interpolation between `root` and `tip`, at distance `t` from the root. -/
def RowInterp (l : List ℝ) (j : ℕ) (t root tip : ℝ) : Prop := ∃ v, l[j]? = some v ∧ Interp t root tip v

/-- What the getters report at row `j` for a section of `s` at station `t` (counted from the left).  The values are those
interpolated between root and tip; the `left` and `right` getters report the airfoils at the ends of the segment. -/
structure ReportedAt (g : Grid) (s : Seg) (j : ℕ) (t : ℝ) : Prop where
  station : g.getCpSpacing[j]? = some t ∧ 0 < t ∧ t < 1
  liftSlope : RowInterp g.getLiftSlopes j (rootStation s.side t) s.root.cla s.tip.cla
  zeroLift : RowInterp g.getZeroLiftAlpha j (rootStation s.side t) s.root.al0 s.tip.al0
  maxLift : RowInterp g.getMaxLifts j (rootStation s.side t) s.root.clMax s.tip.clMax
  moment : RowInterp (g.getMomentSlopes.map (·.1)) j (rootStation s.side t) s.root.cma s.tip.cma
  zeroLiftMoment : RowInterp (g.getMomentSlopes.map (·.2.1)) j (rootStation s.side t) s.root.cml0 s.tip.cml0
  chord : RowInterp g.getChordLength j (rootStation s.side t) s.rootChord s.tipChord
  twist : RowInterp g.getTwist j (rootStation s.side t) s.mount (s.mount - s.washout)
  liftSlopes : g.getLeftLiftSlopes[j]? = some s.atLeft.cla ∧ g.getRightLiftSlopes[j]? = some s.atRight.cla
  zeroLifts : g.getLeftZeroLiftAlpha[j]? = some s.atLeft.al0 ∧ g.getRightZeroLiftAlpha[j]? = some s.atRight.al0
  moments : g.getLeftMomentSlopes[j]? = some s.atLeft.cma ∧ g.getRightMomentSlopes[j]? = some s.atRight.cma
  zeroLiftMoments : g.getLeftZeroLiftMoments[j]? = some s.atLeft.cml0 ∧
    g.getRightZeroLiftMoments[j]? = some s.atRight.cml0
  drags : g.getLeftDragCoeff[j]? = some (s.atLeft.cd0, s.atLeft.cd1, s.atLeft.cd2) ∧
    g.getRightDragCoeff[j]? = some (s.atRight.cd0, s.atRight.cd1, s.atRight.cd2)

/-- **C110, except for `get_drag_coefficients`.**  Row `j` of the arrays reports the section of segment `k` it belongs to. -/
theorem C110_getters_partial (hg : mkGrid (built nm pos ops) c = .ok g) (k : ℕ) (s : Seg) (a b j : ℕ)
    (hs : (built nm pos ops).segments[k]? = some s) (hab : g.slices[k]? = some (a, b)) (h1 : a ≤ j) (h2 : j < b) :
    ∃ t, ReportedAt g s j t := by
  obtain ⟨i, x, hd, hx⟩ := row hg hs hab h1 h2
  have hI := C13_interpolation hg k s i x hx
  obtain ⟨hi, l, r, _, _, _, _, _, rfl⟩ := sectionOf_eq hg hx
  obtain ⟨hch, _, _, hwo, _, hcla, hal0, hcma, hcml0, _, _, _, hclm, _, _⟩ := hI
  have hm := sCp_mem c hi
  have hl : (leftRight s.side s.root s.tip).1 = s.atLeft := by unfold leftRight Seg.atLeft; cases s.side <;> rfl
  have hr : (leftRight s.side s.root s.tip).2 = s.atRight := by unfold leftRight Seg.atRight; cases s.side <;> rfl
  have key : ∀ {β : Type} (f : GridSec → β), (g.data.map f)[j]? = some (f (segSection c s l r i).withIc2) := by
    intro β f; simp [hd]
  refine ⟨sCp c s.n i, ⟨key _, hm.1, hm.2⟩, ⟨_, key _, hcla⟩, ⟨_, key _, hal0⟩, ⟨_, key _, hclm⟩, ⟨_, ?_, hcma⟩,
    ⟨_, ?_, hcml0⟩, ⟨_, key _, hch⟩, ⟨_, key _, ?_⟩, ⟨?_, ?_⟩, ⟨?_, ?_⟩, ⟨?_, ?_⟩, ⟨?_, ?_⟩, ⟨?_, ?_⟩⟩
  · simp [Grid.getMomentSlopes, hd]
  · simp [Grid.getMomentSlopes, hd]
  · unfold Interp at hwo ⊢
    change s.mount - (segSection c s l r i).withIc2.washout = _
    rw [hwo]
    change s.mount - ((1 - rootStation s.side (sCp c s.n i)) * 0 + rootStation s.side (sCp c s.n i) * s.washout) = _
    ring
  all_goals first
    | (rw [← hl]; exact key _)
    | (rw [← hr]; exact key _)

/-- **C110, drag.**  `get_drag_coefficients` is right on a segment whose two airfoils have the same drag coefficients. -/
theorem C110_drag_partial (hg : mkGrid (built nm pos ops) c = .ok g)
    (hd : ∀ s ∈ (built nm pos ops).segments, s.root.cd0 = s.tip.cd0 ∧ s.root.cd1 = s.tip.cd1 ∧ s.root.cd2 = s.tip.cd2) :
    DragInterpolated (built nm pos ops) g := by
  intro k s a b hs hab j h1 h2
  obtain ⟨t, h⟩ := C110_getters_partial hg k s a b j hs hab h1 h2
  obtain ⟨e0, e1, e2⟩ := hd s (List.mem_of_getElem? hs)
  refine ⟨t, _, h.station.1, h.drags.1, ?_, ?_, ?_⟩ <;> unfold Interp Seg.atLeft <;> cases s.side <;>
    simp only [e0, e1, e2] <;> ring

/-- the hypotheses hold for the demonstration aircraft -/
example : ∃ g, mkGrid (built "demo" none demoOps) true = .ok g ∧ DragInterpolated (built "demo" none demoOps) g := by
  obtain ⟨g, hg⟩ := demo_grid true
  refine ⟨g, hg, C110_drag_partial hg fun s hs => ?_⟩
  change s ∈ demo.segments at hs
  rw [demo_segments] at hs
  simp at hs
  rcases hs with rfl | rfl | rfl | rfl | rfl <;> exact ⟨rfl, rfl, rfl⟩

/-- a one-sided wing whose drag grows from root to tip -/
noncomputable def roughTipOps : List PlaneOp :=
  [.addWing "w" none "tip" "right" { semispan := some 1, grid := some 1 },
   .airfoil 0 "af" "tip" { al0 := some (-1/20), cla := some 6, clMax := some (7/5), cml0 := some (-1/20),
                            cma := some (-1/10), cd0 := some (1/10), cd1 := some 0, cd2 := some (1/100) }]

private noncomputable def roughTip : Airfoil :=
  { name := "af", spanPosition := none, al0 := -1/20, cla := 6, clMax := 7/5, cml0 := -1/20, cma := -1/10
    cd0 := 1/10, cd1 := 0, cd2 := 1/100 }

private noncomputable def roughSeg : Seg :=
  { name := "right_w", side := .right, parent := .plane, connectAt := "right_tip", isMain := true
    dpos := 0, yoffset := 0, span := 1, rootChord := 1, tipChord := 1, sweep := 0, dihedral := 0, mount := 0
    washout := 0, root := Airfoil.default "NACA2412", tip := roughTip, cs := {}, n := 1 }

private theorem rough_segs : (built "p" none roughTipOps).segments = [roughSeg] := by rfl

private theorem rough_heap : (built "p" none roughTipOps).heap = [.onlyRight roughSeg] := by rfl

theorem rough_grid (c : Bool) : ∃ g, mkGrid (built "p" none roughTipOps) c = .ok g := by
  apply grid_exists
  have hheap : ∀ (b : ℕ) (w : Wing), (built "p" none roughTipOps).heap[b]? = some w → w = .onlyRight roughSeg := by
    intro b w h
    rw [rough_heap] at h
    match b with
    | 0 => simpa using h.symm
    | b + 1 => simp at h
  constructor
  · intro b w hb s hs a ha
    rw [hheap b w hb] at hs
    simp [Wing.segments] at hs; subst hs; simp [roughSeg] at ha
  · intro b w hb s hs
    rw [hheap b w hb] at hs
    simp [Wing.segments] at hs; subst hs; simp [roughSeg]
  all_goals
    intro s hs
    rw [rough_segs] at hs
    simp at hs
    subst hs
    simp [roughSeg]

/-- **C110 does not hold**: on a right wing with a smooth root and a rough tip the drag coefficient reported is the root's
at every section, whatever its distance from the root. -/
theorem C110_refuted (c : Bool) : ∃ g, mkGrid (built "p" none roughTipOps) c = .ok g ∧
    ¬ DragInterpolated (built "p" none roughTipOps) g := by
  obtain ⟨g, hg⟩ := rough_grid c
  refine ⟨g, hg, fun h => ?_⟩
  have hs : (built "p" none roughTipOps).segments[0]? = some roughSeg := by rw [rough_segs]; rfl
  obtain ⟨x, _, a, b, hab, hlt, hx⟩ := sectionOf_exists hg hs (i := 0) (by simp [roughSeg])
  obtain ⟨t, cd, ht, hcd, h0, _, _⟩ := h 0 _ a b hs hab a le_rfl (by omega)
  obtain ⟨t', h'⟩ := C110_getters_partial hg 0 _ a b a hs hab le_rfl (by omega)
  obtain rfl : t = t' := Option.some.inj (ht.symm.trans h'.station.1)
  obtain rfl := Option.some.inj (hcd.symm.trans h'.drags.1)
  have hp := h'.station.2.1
  simp [Interp, Seg.atLeft, roughSeg, roughTip, rootStation, Airfoil.default] at h0
  nlinarith

end Verif
