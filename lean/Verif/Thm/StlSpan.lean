import Verif.Thm.Stl

/-!
# How far along the span the wings are drawn (C114)

`create_stl` draws the outline of the wing at the control points only.  These lie inside the sections, so the drawing ends
before the tip (and begins after the root).
-/

namespace Verif
open V3

variable {ι : Type} {flt : List Char → Option ℝ} {nm : String} {pos : Option V3} {ops : List PlaneOp} {c : Bool} {g : Grid}

theorem across_us (hg : mkGrid (built nm pos ops) c = .ok g) {k : ℕ} {s : Seg} {i : ℕ} {x : GridSec}
    (hx : SectionOf (built nm pos ops) g k s i x) : s.across = -x.us := by
  obtain ⟨-, -, -, -, -, -, -, h⟩ := C12_frames hg k s i x hx
  rw [h]
  unfold Seg.across
  cases s.side <;> ext <;> simp

/-- the ends of a segment lie the span apart -/
theorem across_tips {s : Seg} (hs : s ∈ (built nm pos ops).segments) {l r : V3}
    (hl : (built nm pos ops).segPosition s .leftTip = .ok l) (hr : (built nm pos ops).segPosition s .rightTip = .ok r) :
    dot s.across r = dot s.across l + s.span := by
  obtain ⟨-, h⟩ := tip_diff (built_inv nm pos ops) hs hl hr
  have h' := Real.sin_sq_add_cos_sq (s.dihedral * Real.pi / 180)
  have : dot s.across (r - l) = s.span := by
    rw [h]
    unfold Seg.across Seg.spanVec
    cases s.side <;> simp only [dot] <;> linear_combination s.span * h'
  rw [dot_sub] at this
  linarith

/-- all points of an outline lie in the plane across the span through the control point -/
theorem across_point (hg : mkGrid (built nm pos ops) c = .ok g) {k : ℕ} {s : Seg} {L R : ℕ → ℝ × ℝ} {S : Surf}
    (hS : DrawsSegment (built nm pos ops) g k s L R S) {i : ℕ} {x : GridSec} (hx : SectionOf (built nm pos ops) g k s i x) (j : ℕ)
    {l : V3} (hl : (built nm pos ops).segPosition s .leftTip = .ok l) :
    dot s.across (S.P i j) = dot s.across l + x.sp * s.span := by
  obtain ⟨-, -, -, -, f1, f2, -, -⟩ := C12_frames hg k s i x hx
  obtain ⟨l', r, hl', hr, -, h, -⟩ := C10_points hg k s i x hx
  rw [hl] at hl'
  cases hl'
  have ht := across_tips (List.mem_of_getElem? hx.1) hl hr
  have e := across_us hg hx
  rw [hS.2.2 i x hx j, dot_sub, dot_sub, dot_smul, dot_smul]
  have a1 : dot s.across x.ua = 0 := by rw [e, dot_comm, dot_neg, f1, neg_zero]
  have a2 : dot s.across x.un = 0 := by rw [e, dot_comm, dot_neg, f2, neg_zero]
  rw [a1, a2, h, dot_add, dot_smul, dot_sub, ht]
  ring

/-- the corners of the triangles of a surface are points of its outlines -/
theorem corner_point {S : Surf} {f : Facet} (hf : f ∈ S.facets) {v : V3} (hv : v ∈ f.corners) : ∃ i j, i < S.rows ∧ v = S.P i j := by
  unfold Surf.facets at hf
  simp only [List.mem_flatMap, List.mem_range] at hf
  obtain ⟨i, hi, j, -, hf⟩ := hf
  have : v = S.P i j ∨ v = S.P i (j + 1) ∨ v = S.P (i + 1) (j + 1) ∨ v = S.P (i + 1) j := by
    unfold halves at hf
    split_ifs at hf <;> simp only [List.mem_cons, List.not_mem_nil, or_false] at hf <;> rcases hf with rfl | rfl <;>
      simp only [Facet.corners, List.mem_cons, List.not_mem_nil, or_false] at hv <;> tauto
  rcases this with h | h | h | h
  · exact ⟨i, j, by omega, h⟩
  · exact ⟨i, j + 1, by omega, h⟩
  · exact ⟨i + 1, j + 1, by omega, h⟩
  · exact ⟨i + 1, j, by omega, h⟩

/-- a corner of a drawn segment lies strictly between the ends of the segment -/
theorem corner_inside (hg : mkGrid (built nm pos ops) c = .ok g) {k : ℕ} {s : Seg} {L R : ℕ → ℝ × ℝ} {S : Surf}
    (hs : (built nm pos ops).segments[k]? = some s) (hS : DrawsSegment (built nm pos ops) g k s L R S) {f : Facet} (hf : f ∈ S.facets)
    {v : V3} (hv : v ∈ f.corners) {l : V3} (hl : (built nm pos ops).segPosition s .leftTip = .ok l) :
    ∃ t : ℝ, 0 < t ∧ t < 1 ∧ dot s.across v = dot s.across l + t * s.span := by
  obtain ⟨i, j, hi, rfl⟩ := corner_point hf hv
  obtain ⟨h1, h2, -⟩ := C09_partition hg k s hs
  rw [hS.1] at hi
  obtain ⟨x, hx⟩ := h1 i hi
  obtain ⟨-, b1, b2, b3, b4, -⟩ := h2 i x hx
  exact ⟨x.sp, by linarith, by linarith, across_point hg hS hx j hl⟩

/-- **C114, what holds.** In the file of an aircraft built through the API, the surface of every segment has one outline per section.
All points of the outline lie in the plane across the span through the control point: at the fraction of the span where the
control point is, which is inside the section, so that the outlines follow each other from left to right.  Missing: outlines at
the two ends. -/
theorem C114_stations_partial (hg : mkGrid (built nm pos ops) c = .ok g) (hn : ∀ s ∈ (built nm pos ops).segments, 1 ≤ s.n)
    {props : List (PropM ι)} (hp : ∀ M ∈ props, Constructed M) {mesh : List Facet}
    (h : createStl flt (some ((built nm pos ops).segments, g)) props = .ok mesh) :
    ∃ (Ws : List Surf) (rest : List Facet), mesh = Ws.flatMap Surf.facets ++ rest ∧ Ws.length = (built nm pos ops).segments.length ∧
      ∀ (k : ℕ) (s : Seg) (S : Surf), (built nm pos ops).segments[k]? = some s → Ws[k]? = some S → S.rows = s.n ∧
        ∀ l, (built nm pos ops).segPosition s .leftTip = .ok l → ∃ a b : ℕ → ℝ, a 0 = 0 ∧ b (s.n - 1) = 1 ∧
          (∀ i, i + 1 < s.n → b i = a (i + 1)) ∧
          ∀ i < s.n, ∀ j, ∃ t, a i < t ∧ t < b i ∧ dot s.across (S.P i j) = dot s.across l + t * s.span := by
  obtain ⟨Ws, Bs, h0, h1, -, h2, -⟩ := C72_aircraft hg hn hp h
  refine ⟨Ws, Bs.flatten.flatMap Surf.facets, by rw [h2, List.flatMap_append], h0, fun k s S hs hS => ?_⟩
  obtain ⟨L, R, -, -, hD⟩ := h1 k s S hs hS
  refine ⟨hD.1, fun l hl => ?_⟩
  obtain ⟨c1, c2, c3, -⟩ := C09_partition hg k s hs
  have h1n := hn s (List.mem_of_getElem? hs)
  have : Nonempty GridSec := ⟨(c1 0 (by omega)).choose⟩
  choose! X hX using c1
  refine ⟨fun i => (X i).s1, fun i => (X i).s2, ?_, ?_, ?_, ?_⟩
  · exact (c2 0 _ (hX 0 (by omega))).2.2.2.2.2.1 rfl
  · exact (c2 (s.n - 1) _ (hX _ (by omega))).2.2.2.2.2.2 (by omega)
  · intro i hi
    exact (c3 i _ _ (hX i (by omega)) (hX (i + 1) hi)).symm
  · intro i hi j
    obtain ⟨-, -, b2, b3, -⟩ := c2 i _ (hX i hi)
    exact ⟨(X i).sp, b2, b3, across_point hg hD (hX i hi) j hl⟩

/-- **C114 fails.** In the file of an aircraft built through the API, no corner of the surface of a segment lies in the plane of either end of the
segment: the drawing begins after the left end and stops before the right end, on every segment (of any span but zero). -/
theorem C114_refuted (hg : mkGrid (built nm pos ops) c = .ok g) (hn : ∀ s ∈ (built nm pos ops).segments, 1 ≤ s.n)
    {props : List (PropM ι)} (hp : ∀ M ∈ props, Constructed M) {mesh : List Facet}
    (h : createStl flt (some ((built nm pos ops).segments, g)) props = .ok mesh) :
    ∃ (Ws : List Surf) (rest : List Facet), mesh = Ws.flatMap Surf.facets ++ rest ∧ Ws.length = (built nm pos ops).segments.length ∧
      (props = [] → rest = []) ∧
      ∀ (k : ℕ) (s : Seg) (S : Surf), (built nm pos ops).segments[k]? = some s → Ws[k]? = some S → s.span ≠ 0 →
        ¬ ∃ t v, (t = .leftTip ∨ t = .rightTip) ∧ (built nm pos ops).segPosition s t = .ok v ∧
          ∃ f ∈ S.facets, ∃ w ∈ f.corners, dot s.across w = dot s.across v := by
  obtain ⟨Ws, Bs, h0, h1, h2, h3, -⟩ := C72_aircraft hg hn hp h
  refine ⟨Ws, Bs.flatten.flatMap Surf.facets, by rw [h3, List.flatMap_append], h0, ?_, fun k s S hs hS h0 => ?_⟩
  · rintro rfl
    cases h2
    rfl
  rintro ⟨t, v, ht, hv, f, hf, w, hw, hd⟩
  obtain ⟨L, R, -, -, hD⟩ := h1 k s S hs hS
  obtain ⟨c1, -⟩ := C09_partition hg k s hs
  obtain ⟨x, hx⟩ := c1 0 (by have := hn s (List.mem_of_getElem? hs); omega)
  obtain ⟨l, r, hl, hr, -⟩ := C10_points hg k s 0 x hx
  obtain ⟨τ, t1, t2, t3⟩ := corner_inside hg hs hD hf hw hl
  rcases ht with rfl | rfl
  · rw [hl] at hv
    cases hv
    have : τ * s.span = 0 := by linarith
    rcases mul_eq_zero.1 this with h | h
    · linarith
    · exact h0 h
  · rw [hr] at hv
    cases hv
    have := across_tips (List.mem_of_getElem? hs) hl hr
    have : (1 - τ) * s.span = 0 := by linarith
    rcases mul_eq_zero.1 this with h | h
    · linarith
    · exact h0 h

/-- **C114 fails: the drawn span.** The file of an aircraft without propellers and dihedral, whose ends are nowhere more than `Y` away from the plane of
symmetry, shows a narrower aircraft: every corner is less than `Y` away from it. -/
theorem C114_span_refuted (hg : mkGrid (built nm pos ops) c = .ok g) (hn : ∀ s ∈ (built nm pos ops).segments, 1 ≤ s.n)
    (hflat : ∀ s ∈ (built nm pos ops).segments, s.dihedral = 0 ∧ s.span ≠ 0) {mesh : List Facet}
    (h : createStl (ι := ι) flt (some ((built nm pos ops).segments, g)) [] = .ok mesh) {Y : ℝ}
    (hY : ∀ s ∈ (built nm pos ops).segments, ∀ t v, (built nm pos ops).segPosition s t = .ok v → |v.y| ≤ Y) :
    ∀ f ∈ mesh, ∀ v ∈ f.corners, |v.y| < Y := by
  intro f hf v hv
  obtain ⟨Ws, Bs, h0, h1, h2, h3, -⟩ := C72_aircraft hg hn (by simp) h
  cases h2
  simp only [List.flatten_nil, List.append_nil] at h3
  rw [h3, List.mem_flatMap] at hf
  obtain ⟨S, hS, hf⟩ := hf
  obtain ⟨k, hk, rfl⟩ := List.getElem_of_mem hS
  have hs : (built nm pos ops).segments[k]? = some ((built nm pos ops).segments[k]'(by omega)) := List.getElem?_eq_getElem _
  set s := (built nm pos ops).segments[k]'(by omega)
  obtain ⟨L, R, -, -, hD⟩ := h1 k s _ hs (List.getElem?_eq_getElem hk)
  have hmem := List.mem_of_getElem? hs
  obtain ⟨c1, -⟩ := C09_partition hg k s hs
  obtain ⟨x, hx⟩ := c1 0 (by have := hn s hmem; omega)
  obtain ⟨l, r, hl, hr, -⟩ := C10_points hg k s 0 x hx
  obtain ⟨τ, t1, t2, t3⟩ := corner_inside hg hs hD hf hv hl
  have t4 := across_tips hmem hl hr
  obtain ⟨d1, d2⟩ := hflat s hmem
  have hd : ∀ w : V3, dot s.across w = w.y := by
    intro w
    unfold Seg.across
    rw [d1]
    cases s.side <;> simp [dot]
  rw [hd, hd] at t3 t4
  have y1 := abs_le.1 (hY s hmem _ _ hl)
  have y2 := abs_le.1 (hY s hmem _ _ hr)
  rw [t3, abs_lt]
  rw [t4] at y2
  rcases lt_or_gt_of_ne d2 with hneg | hpos
  · constructor <;> nlinarith
  · constructor <;> nlinarith

/-! ### A straight wing -/

/-- a straight wing of 10 m span with NACA 0012 sections, 40 sections on each side -/
noncomputable def strutOps : List PlaneOp := [.addWing "w" none "tip" "both" { semispan := some 5 }, .airfoil 0 "NACA0012" "both" {}]

noncomputable def strutPlane : Plane := built "straight" none strutOps

noncomputable def strutSeg (side : Side) : Seg :=
  { name := side.str ++ "_w", side := side, parent := .plane, connectAt := side.str ++ "_tip", isMain := true
    dpos := 0, yoffset := 0, span := 5, rootChord := 1, tipChord := 1, sweep := 0, dihedral := 0, mount := 0
    washout := 0, root := Airfoil.default "NACA0012", tip := Airfoil.default "NACA0012", cs := {}, n := 40 }

theorem digits_0012 : FourDigits digitsFlt ['0', '0', '1', '2'] 0 0 0.12 := by
  refine ⟨'0', '0', '1', '2', 0, 0, 12, rfl, ?_, ?_, ?_, by norm_num, by norm_num, by norm_num⟩ <;> simp [digitsFlt]

theorem own_0012 : ownDigits "NACA0012" = ['0', '0', '1', '2'] := by decide

theorem drawable_0012 : Drawable digitsFlt "NACA0012" := by
  refine ⟨fun _ => by decide, ?_⟩
  rw [own_0012]
  unfold plotNACA parseNaca
  simp [digitsFlt, bind, Except.bind]
  exact ⟨_, rfl⟩

theorem strut_heap : strutPlane.heap = [.both (strutSeg .left) (strutSeg .right)] := rfl

theorem strut_segments : strutPlane.segments = [strutSeg .left, strutSeg .right] := rfl

theorem strut_wellFormed : WellFormed strutPlane := by
  have hheap : ∀ (b : ℕ) (w : Wing), strutPlane.heap[b]? = some w → b = 0 ∧ w = .both (strutSeg .left) (strutSeg .right) := by
    intro b w h
    rw [strut_heap] at h
    match b with
    | 0 => simp at h; exact ⟨rfl, h.symm⟩
    | b + 1 => simp at h
  constructor
  · intro b w hb s hs a ha
    obtain ⟨rfl, rfl⟩ := hheap b w hb
    simp [Wing.segments] at hs; rcases hs with rfl | rfl <;> simp [strutSeg] at ha
  · intro b w hb s hs
    obtain ⟨rfl, rfl⟩ := hheap b w hb
    simp [Wing.segments] at hs; rcases hs with rfl | rfl <;> simp [strutSeg]
  all_goals
    intro s hs
    rw [strut_segments] at hs
    simp at hs
    rcases hs with rfl | rfl <;> simp [strutSeg]

theorem strut_tip (side : Side) (t : TipAt) :
    strutPlane.segPosition (strutSeg side) t = addOff ((strutSeg side).tipOffset t) 0 := by
  unfold Plane.segPosition
  rw [strut_heap]
  simp only [segPos, strutSeg]
  rfl

theorem strut_y {s : Seg} (hs : s ∈ strutPlane.segments) {t : TipAt} {v : V3} (h : strutPlane.segPosition s t = .ok v) : |v.y| ≤ 5 := by
  have : ∃ side, s = strutSeg side := by
    rw [strut_segments] at hs
    simp only [List.mem_cons, List.not_mem_nil, or_false] at hs
    rcases hs with h | h
    · exact ⟨_, h⟩
    · exact ⟨_, h⟩
  obtain ⟨side, rfl⟩ := this
  rw [strut_tip] at h
  cases side <;> cases t <;> simp [Seg.tipOffset, strutSeg, addOff] at h <;> rw [← h] <;> norm_num

theorem strut_right : strutPlane.segPosition (strutSeg .right) .rightTip = .ok ⟨0, 5, 0⟩ := by
  rw [strut_tip]
  simp only [Seg.tipOffset, strutSeg, addOff]
  norm_num

/-- the straight wing is written to a file -/
theorem strut_mesh {ι : Type} : ∃ g mesh, mkGrid strutPlane true = .ok g ∧
    createStl (ι := ι) digitsFlt (some (strutPlane.segments, g)) [] = .ok mesh ∧ mesh.length = 2 * (39 * 98) := by
  obtain ⟨g, hg⟩ := grid_exists "straight" none strutOps strut_wellFormed true
  have hn : ∀ s ∈ strutPlane.segments, 1 ≤ s.n := by
    intro s hs
    rw [strut_segments] at hs
    simp only [List.mem_cons, List.not_mem_nil, or_false] at hs
    rcases hs with rfl | rfl <;> simp [strutSeg]
  obtain ⟨mesh, hm⟩ := C72_total (ι := ι) (flt := digitsFlt) (props := []) hg hn (by
    intro s hs
    have hs : s ∈ strutPlane.segments := hs
    rw [strut_segments] at hs
    simp only [List.mem_cons, List.not_mem_nil, or_false] at hs
    rcases hs with rfl | rfl <;> exact ⟨drawable_0012, drawable_0012⟩) (by simp)
  refine ⟨g, mesh, hg, hm, ?_⟩
  obtain ⟨Ws, Bs, -, -, h2, -, h4⟩ := C72_aircraft (ι := ι) hg hn (by simp) hm
  obtain ⟨c1, -⟩ := C16_concatenation hg
  have : (mesh.length : ℤ) = ((2 * (39 * 98) : ℕ) : ℤ) := by
    rw [h4]
    unfold numFaces
    simp only [c1, numSections_eq]
    have e : (built "straight" none strutOps).segments = [strutSeg .left, strutSeg .right] := strut_segments
    rw [e]
    simp [strutSeg, nOut, totN]
  exact_mod_cast this

/-- **C114 fails on a plain straight wing.** It is not true of all aircraft that the file shows every segment from end to end. -/
theorem C114_straight_refuted {ι : Type} : ¬ ∀ (nm : String) (pos : Option V3) (ops : List PlaneOp) (c : Bool) (g : Grid) (mesh : List Facet),
    mkGrid (built nm pos ops) c = .ok g → createStl (ι := ι) digitsFlt (some ((built nm pos ops).segments, g)) [] = .ok mesh →
    ∀ s ∈ (built nm pos ops).segments, ReachesEnds (built nm pos ops) s mesh := by
  intro H
  obtain ⟨g, mesh, hg, hm, -⟩ := strut_mesh (ι := ι)
  have hseg : ∀ s ∈ strutPlane.segments, 1 ≤ s.n ∧ s.dihedral = 0 ∧ s.span ≠ 0 := by
    intro s hs
    rw [strut_segments] at hs
    simp only [List.mem_cons, List.not_mem_nil, or_false] at hs
    rcases hs with rfl | rfl <;> simp [strutSeg]
  obtain ⟨f, hf, w, hw, h⟩ := H "straight" none strutOps true g mesh hg hm (strutSeg .right) (by
    show _ ∈ strutPlane.segments
    rw [strut_segments]; simp) .rightTip _ (.inr rfl) strut_right
  have := C114_span_refuted hg (fun s hs => (hseg s hs).1) (fun s hs => (hseg s hs).2) hm (Y := 5)
    (fun s hs t v h => strut_y hs h) f hf w hw
  have e : w.y = 5 := by simpa [Seg.across, strutSeg, dot] using h
  rw [e] at this
  norm_num at this

end Verif
