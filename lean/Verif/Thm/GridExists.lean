import Verif.Lemmas.GridGeom

/-!
# C82: every well-formed aircraft has a grid, and a concrete aircraft that is well-formed
-/

namespace Verif
open V3

/-- On every well-formed plane built through the API, `LLGrid` is constructed without an exception and without
non-finite entries, for both spacings. -/
theorem grid_exists (nm : String) (pos : Option V3) (ops : List PlaneOp) (hw : WellFormed (built nm pos ops))
    (cosine : Bool) : ∃ g, mkGrid (built nm pos ops) cosine = .ok g := by
  have hp := built_inv nm pos ops
  generalize built nm pos ops = p at *
  apply mkGrid_of
  intro s hs
  obtain ⟨b, w, hb, hsw⟩ := mem_plane_segments hs
  obtain ⟨l, hl⟩ := tip_exists hp hw.attach hw.sweep b hb hsw .leftTip
  obtain ⟨r, hr⟩ := tip_exists hp hw.attach hw.sweep b hb hsw .rightTip
  obtain ⟨hc, hsv⟩ := tip_diff hp hs hl hr
  refine ⟨_, segData_of hl hr ?_ ?_ ?_ ?_⟩
  · rw [hsv, spanVec_nrm s hc]
    have h1 := hw.span s hs
    exact div_ne_zero (abs_ne_zero.2 h1) (abs_ne_zero.2 hc)
  · have h1 := hw.ctrlSpan s hs
    unfold Seg.csSpan
    cases s.side <;> simp only
    · intro h; apply h1; linarith
    · intro h; apply h1; linarith
  · rintro ⟨_, h⟩
    have := hw.sections s hs
    omega
  · intro i _ hcov
    obtain ⟨h1, h2, h3, h4⟩ := hw.ctrlChord s hs
    exact flapChord_mem s ⟨h1, h2⟩ ⟨h3, h4⟩ hcov

/-! ### A concrete aircraft -/

/-- swept main wing with ailerons, winglets on its tips, a fin -/
noncomputable def demoOps : List PlaneOp :=
  [.addWing "Main" none "tip" "both" { semispan := some 4, sweep := some 30, rootChord := some 1.2, tipChord := some 0.6, washout := some 2 },
   .addWing "Winglet" (some "Main") "tip" "both"
     { semispan := some 1, dihedral := some 80, isMain := some false, grid := some 7 },
   .addWing "Fin" none "tip" "right" { semispan := some 1, dihedral := some 90, isMain := some false, grid := some 5 },
   .controlSurface 0 { percentSpan := some (0.5, 0.9), percentChord := some (.single 0.25),
                       mix := some { aileron := some 1 } }]

/-- the demonstration aircraft -/
noncomputable def demo : Plane := built "demo" none demoOps

/-- aileron of the demonstration aircraft -/
noncomputable def demoCs : CtrlSurf :=
  { spanRoot := 0.5, spanTip := 0.9, chordRoot := 0.25, chordTip := 0.25, sealed := true, aileron := some 1 }

/-- main wing segment of the demonstration aircraft -/
noncomputable def demoMain (side : Side) : Seg :=
  { name := side.str ++ "_Main", side := side, parent := .plane, connectAt := side.str ++ "_tip", isMain := true
    dpos := 0, yoffset := 0, span := 4, rootChord := 1.2, tipChord := 0.6, sweep := 30, dihedral := 0, mount := 0
    washout := 2, root := Airfoil.default "NACA2412", tip := Airfoil.default "NACA2412", cs := demoCs, n := 40 }

/-- winglet segment of the demonstration aircraft -/
noncomputable def demoWinglet (side : Side) : Seg :=
  { name := side.str ++ "_Winglet", side := side, parent := .wing 0, connectAt := side.str ++ "_tip", isMain := false
    dpos := 0, yoffset := 0, span := 1, rootChord := 1, tipChord := 1, sweep := 0, dihedral := 80, mount := 0
    washout := 0, root := Airfoil.default "NACA2412", tip := Airfoil.default "NACA2412", cs := {}, n := 7 }

/-- fin of the demonstration aircraft -/
noncomputable def demoFin : Seg :=
  { name := "right_Fin", side := .right, parent := .plane, connectAt := "right_tip", isMain := false
    dpos := 0, yoffset := 0, span := 1, rootChord := 1, tipChord := 1, sweep := 0, dihedral := 90, mount := 0
    washout := 0, root := Airfoil.default "NACA2412", tip := Airfoil.default "NACA2412", cs := {}, n := 5 }

theorem demo_heap : demo.heap = [.both (demoMain .left) (demoMain .right), .both (demoWinglet .left) (demoWinglet .right),
    .onlyRight demoFin] := rfl

theorem demo_segments : demo.segments =
    [demoMain .left, demoMain .right, demoWinglet .left, demoWinglet .right, demoFin] := rfl

theorem demo_wellFormed : WellFormed demo := by
  have hheap : ∀ (b : ℕ) (w : Wing), demo.heap[b]? = some w →
      (b = 0 ∧ w = .both (demoMain .left) (demoMain .right)) ∨
      (b = 1 ∧ w = .both (demoWinglet .left) (demoWinglet .right)) ∨ (b = 2 ∧ w = .onlyRight demoFin) := by
    intro b w h
    rw [demo_heap] at h
    match b with
    | 0 => simp at h; left; exact ⟨rfl, h.symm⟩
    | 1 => simp at h; right; left; exact ⟨rfl, h.symm⟩
    | 2 => simp at h; right; right; exact ⟨rfl, h.symm⟩
    | b + 3 => simp at h
  have h30 : Real.cos (30 * Real.pi / 180) ≠ 0 := by
    apply ne_of_gt
    apply Real.cos_pos_of_mem_Ioo
    have := Real.pi_pos
    constructor <;> linarith
  constructor
  · intro b w hb s hs a ha
    rcases hheap b w hb with ⟨rfl, rfl⟩ | ⟨rfl, rfl⟩ | ⟨rfl, rfl⟩
    · simp [Wing.segments] at hs; rcases hs with rfl | rfl <;> simp [demoMain] at ha
    · simp [Wing.segments] at hs
      rcases hs with rfl | rfl
      · have : a = 0 := by simpa [demoWinglet] using ha.symm
        subst this
        exact ⟨by omega, rfl, _, demoMain .left, rfl, List.mem_cons_self, rfl⟩
      · have : a = 0 := by simpa [demoWinglet] using ha.symm
        subst this
        exact ⟨by omega, rfl, _, demoMain .right, rfl, List.mem_cons_of_mem _ List.mem_cons_self, rfl⟩
    · simp [Wing.segments] at hs; subst hs; simp [demoFin] at ha
  · intro b w hb s hs
    rcases hheap b w hb with ⟨rfl, rfl⟩ | ⟨rfl, rfl⟩ | ⟨rfl, rfl⟩
    · simp [Wing.segments] at hs; rcases hs with rfl | rfl <;> exact h30
    · simp [Wing.segments] at hs; rcases hs with rfl | rfl <;> simp [demoWinglet]
    · simp [Wing.segments] at hs; subst hs; simp [demoFin]
  all_goals
    intro s hs
    rw [demo_segments] at hs
    simp at hs
    rcases hs with rfl | rfl | rfl | rfl | rfl <;> simp [demoMain, demoWinglet, demoFin, demoCs] <;> norm_num

/-- the grid of the demonstration aircraft exists, so the theorems about grids are not vacuous -/
theorem demo_grid (cosine : Bool) : ∃ g, mkGrid demo cosine = .ok g := grid_exists _ _ _ demo_wellFormed cosine

end Verif
