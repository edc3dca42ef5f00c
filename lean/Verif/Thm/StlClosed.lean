import Verif.Thm.StlSpan

/-!
# The drawn surfaces: orientation of the triangles, and where the surfaces are open (C115)
-/

namespace Verif
open V3

variable {ι : Type} {flt : List Char → Option ℝ} {nm : String} {pos : Option V3} {ops : List PlaneOp} {c : Bool} {g : Grid}

/-! ### Sums over edges -/

/-- sum of `e` over the edges -/
def edgeSum (e : V3 → V3 → ℝ) (l : List (V3 × V3)) : ℝ := (l.map fun p => e p.1 p.2).sum

@[simp] theorem edgeSum_nil (e : V3 → V3 → ℝ) : edgeSum e [] = 0 := rfl
@[simp] theorem edgeSum_cons (e : V3 → V3 → ℝ) (p : V3 × V3) (l : List (V3 × V3)) : edgeSum e (p :: l) = e p.1 p.2 + edgeSum e l := by
  simp [edgeSum]
@[simp] theorem edgeSum_append (e : V3 → V3 → ℝ) (l m : List (V3 × V3)) : edgeSum e (l ++ m) = edgeSum e l + edgeSum e m := by
  simp [edgeSum]

theorem edgeSum_flatMap {α : Type} (e : V3 → V3 → ℝ) (f : α → List (V3 × V3)) (l : List α) :
    edgeSum e (l.flatMap f) = (l.map fun a => edgeSum e (f a)).sum := by
  induction l with
  | nil => rfl
  | cons a t ih => simp [ih]

theorem edgeSum_map {α : Type} (e : V3 → V3 → ℝ) (f : α → V3 × V3) (l : List α) :
    edgeSum e (l.map f) = (l.map fun a => e (f a).1 (f a).2).sum := by
  simp [edgeSum, List.map_map, Function.comp_def]

/-- sums over ranges -/
theorem range_sum (f : ℕ → ℝ) (n : ℕ) : ((List.range n).map f).sum = ∑ i ∈ Finset.range n, f i := by
  induction n with
  | zero => simp
  | succ n ih => rw [List.range_succ, Finset.sum_range_succ]; simp [ih]

/-- the four edges of a quadrilateral remain -/
theorem halves_sum {e : V3 → V3 → ℝ} (he : ∀ u v, e u v = - e v u) (rev : Bool) (a b c d : V3) :
    edgeSum e ((halves rev a b c d).flatMap Facet.edges) = (if rev then -1 else 1) * (e a b + e b c + e c d + e d a) := by
  cases rev
  · simp only [halves, Facet.edges, List.flatMap_cons, List.flatMap_nil, edgeSum_append, edgeSum_cons, edgeSum_nil, Bool.false_eq_true, if_false]
    linarith [he b d]
  · simp only [halves, Facet.edges, List.flatMap_cons, List.flatMap_nil, edgeSum_append, edgeSum_cons, edgeSum_nil, if_true]
    linarith [he b d, he a d, he b a, he d c, he c b]

/-- **Stokes.** Over all edges of all triangles of a surface, an antisymmetric function of the edges adds up to its sum over the rim. -/
theorem surf_sum {e : V3 → V3 → ℝ} (he : ∀ u v, e u v = - e v u) (S : Surf) :
    edgeSum e (S.facets.flatMap Facet.edges) = (if S.rev then -1 else 1) * edgeSum e S.rim := by
  have h1 : edgeSum e (S.facets.flatMap Facet.edges) = ∑ i ∈ Finset.range (S.rows - 1), ∑ j ∈ Finset.range 49, (if S.rev then -1 else 1) *
      (e (S.P i j) (S.P i (j + 1)) + e (S.P i (j + 1)) (S.P (i + 1) (j + 1)) + e (S.P (i + 1) (j + 1)) (S.P (i + 1) j) +
        e (S.P (i + 1) j) (S.P i j)) := by
    unfold Surf.facets
    rw [List.flatMap_assoc, edgeSum_flatMap, range_sum]
    refine Finset.sum_congr rfl fun i _ => ?_
    rw [List.flatMap_assoc, edgeSum_flatMap, range_sum]
    exact Finset.sum_congr rfl fun j _ => halves_sum he _ _ _ _ _
  rw [h1]
  simp only [← Finset.mul_sum]
  congr 1
  unfold Surf.rim
  simp only [edgeSum_append, edgeSum_map, range_sum]
  have key : ∀ n, ∑ i ∈ Finset.range n, ∑ j ∈ Finset.range 49,
      (e (S.P i j) (S.P i (j + 1)) + e (S.P i (j + 1)) (S.P (i + 1) (j + 1)) + e (S.P (i + 1) (j + 1)) (S.P (i + 1) j) +
        e (S.P (i + 1) j) (S.P i j)) =
      ∑ j ∈ Finset.range 49, e (S.P 0 j) (S.P 0 (j + 1)) + ∑ i ∈ Finset.range n, e (S.P i 49) (S.P (i + 1) 49) +
        (∑ j ∈ Finset.range 49, e (S.P n (j + 1)) (S.P n j) + ∑ i ∈ Finset.range n, e (S.P (i + 1) 0) (S.P i 0)) := by
    intro n
    induction n with
    | zero =>
      simp only [Finset.range_zero, Finset.sum_empty, add_zero, ← Finset.sum_add_distrib]
      symm
      exact Finset.sum_eq_zero fun j _ => by rw [he]; ring
    | succ n ih =>
      rw [Finset.sum_range_succ, ih, Finset.sum_range_succ _ n, Finset.sum_range_succ _ n]
      have row : ∑ j ∈ Finset.range 49, (e (S.P n j) (S.P n (j + 1)) + e (S.P n (j + 1)) (S.P (n + 1) (j + 1)) +
          e (S.P (n + 1) (j + 1)) (S.P (n + 1) j) + e (S.P (n + 1) j) (S.P n j)) =
          - ∑ j ∈ Finset.range 49, e (S.P n (j + 1)) (S.P n j) + (e (S.P n 49) (S.P (n + 1) 49) + e (S.P (n + 1) 0) (S.P n 0)) +
          ∑ j ∈ Finset.range 49, e (S.P (n + 1) (j + 1)) (S.P (n + 1) j) := by
        have tel := Finset.sum_range_sub (fun j => e (S.P n j) (S.P (n + 1) j)) 49
        have h2 : ∀ j, e (S.P (n + 1) j) (S.P n j) = - e (S.P n j) (S.P (n + 1) j) := fun j => he _ _
        have h3 : ∀ j, e (S.P n j) (S.P n (j + 1)) = - e (S.P n (j + 1)) (S.P n j) := fun j => he _ _
        rw [h2 0]
        simp only [h2, h3, Finset.sum_add_distrib, Finset.sum_neg_distrib, Finset.sum_sub_distrib] at tel ⊢
        linarith
      rw [row]
      ring
  exact key _

open Classical in
/-- the balance of one edge -/
noncomputable def balance (u v : V3) : V3 → V3 → ℝ := fun a b => (if (a, b) = (u, v) then 1 else 0) - (if (b, a) = (u, v) then 1 else 0)

theorem balance_anti (u v a b : V3) : balance u v a b = - balance u v b a := by unfold balance; ring

theorem edgeSum_balance (u v : V3) (l : List (V3 × V3)) : edgeSum (balance u v) l = (times u v l : ℝ) - times v u l := by
  induction l with
  | nil => simp [times]
  | cons p t ih =>
    obtain ⟨a, b⟩ := p
    rw [edgeSum_cons, ih]
    unfold times balance
    classical
    simp only [List.count_cons]
    have : ((b, a) = (u, v)) ↔ ((a, b) = (v, u)) := by simp [and_comm]
    simp only [this, beq_iff_eq]
    split_ifs <;> push_cast <;> ring

/-- if the mesh is closed, every antisymmetric sum over its edges vanishes -/
theorem closed_sum {mesh : List Facet} (h : ClosedMesh mesh) {e : V3 → V3 → ℝ} (he : ∀ u v, e u v = - e v u) :
    edgeSum e (mesh.flatMap Facet.edges) = 0 := by
  classical
  set l := mesh.flatMap Facet.edges
  have h1 : edgeSum e l = edgeSum e (l.map Prod.swap) := by
    have hp : l.Perm (l.map Prod.swap) := by
      rw [List.perm_iff_count]
      rintro ⟨u, v⟩
      have h2 : (l.map Prod.swap).count (u, v) = l.count (v, u) := by
        rw [show (u, v) = Prod.swap (v, u) from rfl, List.count_map_of_injective _ _ Prod.swap_injective]
      rw [h2]
      have := h u v
      unfold times at this
      convert this
    unfold edgeSum
    exact (hp.map _).sum_eq
  have h2 : edgeSum e (l.map Prod.swap) = - edgeSum e l := by
    clear h1
    generalize l = l
    induction l with
    | nil => simp
    | cons p t ih => simp only [List.map_cons, edgeSum_cons, ih, Prod.swap]; rw [he]; ring
  linarith

/-! ### Consistent orientation -/

/-- off the rim, every edge of a surface is run through as often in one direction as in the other -/
theorem surf_balanced (S : Surf) (u v : V3) (h1 : (u, v) ∉ S.rim) (h2 : (v, u) ∉ S.rim) :
    times u v (S.facets.flatMap Facet.edges) = times v u (S.facets.flatMap Facet.edges) := by
  have h := surf_sum (balance_anti u v) S
  rw [edgeSum_balance, edgeSum_balance] at h
  classical
  have z1 : times u v S.rim = 0 := by unfold times; exact List.count_eq_zero.2 h1
  have z2 : times v u S.rim = 0 := by unfold times; exact List.count_eq_zero.2 h2
  rw [z1, z2] at h
  have : (times u v (S.facets.flatMap Facet.edges) : ℝ) = times v u (S.facets.flatMap Facet.edges) := by
    simp at h
    linarith
  exact_mod_cast this

/-- **C115, consistent orientation.** The file of an aircraft built through the API consists of one surface per segment and one per
blade.  Every edge of a surface that is not on its rim is run through by its triangles as often in one direction as in the
other: neighbouring triangles agree about which side is outside.  Missing: the rims. -/
theorem C115_consistent_partial (hg : mkGrid (built nm pos ops) c = .ok g) (hn : ∀ s ∈ (built nm pos ops).segments, 1 ≤ s.n)
    {props : List (PropM ι)} (hp : ∀ M ∈ props, Constructed M) {mesh : List Facet}
    (h : createStl flt (some ((built nm pos ops).segments, g)) props = .ok mesh) :
    ∃ (Ws : List Surf) (Bs : List (List Surf)), Ws.length = (built nm pos ops).segments.length ∧
      (∀ (k : ℕ) (s : Seg) (S : Surf), (built nm pos ops).segments[k]? = some s → Ws[k]? = some S →
        ∃ L R, OwnOutline flt s.atLeft.name L ∧ OwnOutline flt s.atRight.name R ∧ DrawsSegment (built nm pos ops) g k s L R S) ∧
      List.Forall₂ (fun M S => DrawsProp flt M (drawnAngle M) S) props Bs ∧ mesh = (Ws ++ Bs.flatten).flatMap Surf.facets ∧
      ∀ S ∈ Ws ++ Bs.flatten, ∀ u v, (u, v) ∉ S.rim → (v, u) ∉ S.rim →
        times u v (S.facets.flatMap Facet.edges) = times v u (S.facets.flatMap Facet.edges) := by
  obtain ⟨Ws, Bs, h0, h1, h2, h3, -⟩ := C72_aircraft hg hn hp h
  exact ⟨Ws, Bs, h0, h1, h2, h3, fun S _ u v => surf_balanced S u v⟩

/-! ### Which side the triangles face -/

/-- stations increase from section to section -/
theorem station_lt (hg : mkGrid (built nm pos ops) c = .ok g) {k : ℕ} {s : Seg} (hs : (built nm pos ops).segments[k]? = some s) {i : ℕ}
    {x y : GridSec} (hx : SectionOf (built nm pos ops) g k s i x) (hy : SectionOf (built nm pos ops) g k s (i + 1) y) : x.sp < y.sp := by
  obtain ⟨-, c2, c3, -⟩ := C09_partition hg k s hs
  obtain ⟨-, -, -, a1, -⟩ := c2 i x hx
  obtain ⟨-, -, b1, -⟩ := c2 (i + 1) y hy
  have := c3 i x y hx hy
  linarith

/-- and from the first section on -/
theorem station_first (hg : mkGrid (built nm pos ops) c = .ok g) {k : ℕ} {s : Seg} (hs : (built nm pos ops).segments[k]? = some s)
    {x : GridSec} (hx : SectionOf (built nm pos ops) g k s 0 x) : ∀ (i : ℕ) (y : GridSec),
    SectionOf (built nm pos ops) g k s (i + 1) y → x.sp < y.sp := by
  intro i
  induction i with
  | zero => intro y hy; exact station_lt hg hs hx hy
  | succ i ih =>
    intro y hy
    obtain ⟨c1, c2, -⟩ := C09_partition hg k s hs
    obtain ⟨z, hz⟩ := c1 (i + 1) (by have := (c2 _ _ hy).1; omega)
    exact (ih z hz).trans (station_lt hg hs hz hy)

/-- chords between positive chords -/
theorem chord_pos (hg : mkGrid (built nm pos ops) c = .ok g) {k : ℕ} {s : Seg} {i : ℕ} {x : GridSec}
    (hx : SectionOf (built nm pos ops) g k s i x) (h0 : 0 < s.rootChord) (h1 : 0 < s.tipChord) : 0 < x.chord := by
  obtain ⟨h, -, -, -, -, -, -, -, -, -, -, -, -, a, b⟩ := C13_interpolation hg k s i x hx
  unfold Interp at h
  have := mul_pos (sub_pos.2 b) h0
  have := mul_pos a h1
  nlinarith

/-- the outline at a station: interpolated between the ends, in chords ahead of the quarter chord and below the chord line -/
def between (L R : ℕ → ℝ × ℝ) (sp : ℝ) (j : ℕ) : ℝ × ℝ :=
  ((1 - sp) * (L j).1 + sp * (R j).1, (1 - sp) * (L j).2 + sp * (R j).2)

/-- the component of a cross product along `n`, if the first factor lies in the plane of `a` and `n` -/
theorem cross_up {a n : V3} (α β : ℝ) (w : V3) : dot (cross (α • a + β • n) w) n = α * dot w (cross n a) := by
  simp [dot, cross]; ring

theorem cross_fore {a n : V3} (α β : ℝ) (w : V3) : dot (cross (α • a + β • n) w) a = - β * dot w (cross n a) := by
  simp [dot, cross]; ring

section
variable (hg : mkGrid (built nm pos ops) c = .ok g) {k : ℕ} {s : Seg} {L R : ℕ → ℝ × ℝ} {S : Surf}
  (hs : (built nm pos ops).segments[k]? = some s) (hS : DrawsSegment (built nm pos ops) g k s L R S)
include hg hs hS

omit hg hs in
/-- the step along the outline -/
theorem outline_step {i : ℕ} {x : GridSec} (hx : SectionOf (built nm pos ops) g k s i x) (j m : ℕ) :
    S.P i m - S.P i j = (-(x.chord * ((between L R x.sp m).1 - (between L R x.sp j).1))) • x.ua +
      (-(x.chord * ((between L R x.sp m).2 - (between L R x.sp j).2))) • x.un := by
  rw [hS.2.2 i x hx j, hS.2.2 i x hx m]
  unfold between
  ext <;> simp <;> ring

omit hs hS in
theorem across_cross {i : ℕ} {x : GridSec} (hx : SectionOf (built nm pos ops) g k s i x) : cross x.un x.ua = s.across := by
  obtain ⟨-, -, -, -, -, -, h, -⟩ := C12_frames hg k s i x hx
  rw [across_us hg hx, h]
  ext <;> simp [cross] <;> ring

omit hs in
/-- the step across -/
theorem across_step {i i' : ℕ} {x y : GridSec} (hx : SectionOf (built nm pos ops) g k s i x)
    (hy : SectionOf (built nm pos ops) g k s i' y) (j m : ℕ) : dot (S.P i' m - S.P i j) s.across = (y.sp - x.sp) * s.span := by
  obtain ⟨l, r, hl, -⟩ := C10_points hg k s i x hx
  rw [dot_comm, dot_sub, across_point hg hS hx j hl, across_point hg hS hy m hl]
  ring

/-- **C115, which side the triangles face.** Take the two triangles between the outlines of neighbouring sections `x` and `y` and between the
points `j` and `j + 1`; each has one edge on one of the two outlines.  If the outline of this section runs aft there, the triangle
faces the upper side of the section; if it runs forward, the lower side; if it runs straight up, the front.  (The outline runs
forward along the lower side and aft along the upper side: this is the outside.) -/
theorem C115_facing {i : ℕ} {x y : GridSec} (hx : SectionOf (built nm pos ops) g k s i x)
    (hy : SectionOf (built nm pos ops) g k s (i + 1) y) (hc : 0 < s.rootChord ∧ 0 < s.tipChord) (hspan : 0 < s.span) (j : ℕ) :
    ∃ f₁ f₂ : Facet, halves S.rev (S.P i j) (S.P i (j + 1)) (S.P (i + 1) (j + 1)) (S.P (i + 1) j) = [f₁, f₂] ∧
      ∀ f z, (f, z) = (f₁, x) ∨ (f, z) = (f₂, y) →
        ((between L R z.sp (j + 1)).1 < (between L R z.sp j).1 → 0 < dot f.normal z.un) ∧
        ((between L R z.sp j).1 < (between L R z.sp (j + 1)).1 → dot f.normal z.un < 0) ∧
        ((between L R z.sp (j + 1)).1 = (between L R z.sp j).1 → (between L R z.sp (j + 1)).2 < (between L R z.sp j).2 →
          dot f.normal z.un = 0 ∧ dot f.normal z.ua < 0) := by
  have hD : 0 < (y.sp - x.sp) * s.span := mul_pos (sub_pos.2 (station_lt hg hs hx hy)) hspan
  refine ⟨⟨S.P i j, S.P i (j + 1), S.P (i + 1) j⟩, ⟨S.P i (j + 1), S.P (i + 1) (j + 1), S.P (i + 1) j⟩, ?_, ?_⟩
  · rw [hS.2.1]; rfl
  have n1 : (⟨S.P i j, S.P i (j + 1), S.P (i + 1) j⟩ : Facet).normal =
      cross (S.P i (j + 1) - S.P i j) (S.P (i + 1) j - S.P i j) := rfl
  have n2 : (⟨S.P i (j + 1), S.P (i + 1) (j + 1), S.P (i + 1) j⟩ : Facet).normal =
      cross (S.P (i + 1) (j + 1) - S.P (i + 1) j) (S.P (i + 1) j - S.P i (j + 1)) := by
    unfold Facet.normal
    ext <;> simp [cross] <;> ring
  have key : ∀ z : GridSec, 0 < z.chord → ∀ N : V3,
      dot N z.un = -(z.chord * ((between L R z.sp (j + 1)).1 - (between L R z.sp j).1)) * ((y.sp - x.sp) * s.span) →
      dot N z.ua = - -(z.chord * ((between L R z.sp (j + 1)).2 - (between L R z.sp j).2)) * ((y.sp - x.sp) * s.span) →
      ((between L R z.sp (j + 1)).1 < (between L R z.sp j).1 → 0 < dot N z.un) ∧
        ((between L R z.sp j).1 < (between L R z.sp (j + 1)).1 → dot N z.un < 0) ∧
        ((between L R z.sp (j + 1)).1 = (between L R z.sp j).1 → (between L R z.sp (j + 1)).2 < (between L R z.sp j).2 →
          dot N z.un = 0 ∧ dot N z.ua < 0) := by
    intro z hz N h1 h2
    rw [h1, h2]
    refine ⟨fun h => mul_pos ?_ hD, fun h => mul_neg_of_neg_of_pos ?_ hD, fun h h' => ⟨?_, mul_neg_of_neg_of_pos ?_ hD⟩⟩
    · have := mul_pos hz (sub_pos.2 h); linarith
    · have := mul_pos hz (sub_pos.2 h); linarith
    · rw [h]; ring
    · have := mul_pos hz (sub_pos.2 h'); linarith
  rintro f z (h | h)
  · cases h
    refine key _ (chord_pos hg hx hc.1 hc.2) _ ?_ ?_
    · rw [n1, outline_step hS hx j (j + 1), cross_up, across_cross hg hx, across_step hg hS hx hy]
    · rw [n1, outline_step hS hx j (j + 1), cross_fore, across_cross hg hx, across_step hg hS hx hy]
  · cases h
    refine key _ (chord_pos hg hy hc.1 hc.2) _ ?_ ?_
    · rw [n2, outline_step hS hy j (j + 1), cross_up, across_cross hg hy, across_step hg hS hx hy]
    · rw [n2, outline_step hS hy j (j + 1), cross_fore, across_cross hg hy, across_step hg hS hx hy]

/-! ### Open at the ends and at the trailing edge -/

open Classical in
/-- A drawn segment of two or more sections, whose first outline is open at the trailing edge, is not a closed surface; nor does another surface
close it that has no point in the plane of this outline. -/
theorem segment_open {x : GridSec} (hx : SectionOf (built nm pos ops) g k s 0 x) (h2 : 2 ≤ s.n) (hspan : s.span ≠ 0)
    (hgap : S.P 0 49 ≠ S.P 0 0) {l : V3} (hl : (built nm pos ops).segPosition s .leftTip = .ok l) :
    ∃ e : V3 → V3 → ℝ, (∀ u v, e u v = - e v u) ∧ (∀ u v, dot s.across u ≠ dot s.across l + x.sp * s.span → e u v = 0) ∧
      edgeSum e (S.facets.flatMap Facet.edges) ≠ 0 := by
  obtain ⟨c1, c2, -⟩ := C09_partition hg k s hs
  set y0 := dot s.across l + x.sp * s.span
  set d := S.P 0 49 - S.P 0 0
  let e : V3 → V3 → ℝ := fun u v => if dot s.across u = y0 ∧ dot s.across v = y0 then dot d (v - u) else 0
  have he : ∀ u v, e u v = - e v u := by
    intro u v
    simp only [e]
    by_cases h : dot s.across u = y0 ∧ dot s.across v = y0
    · rw [if_pos h, if_pos h.symm, dot_sub, dot_sub]; ring
    · rw [if_neg h, if_neg fun h' => h h'.symm, neg_zero]
  have hz : ∀ u v, dot s.across u ≠ y0 → e u v = 0 := fun u v h => if_neg fun h' => h h'.1
  have hz' : ∀ u v, dot s.across v ≠ y0 → e u v = 0 := fun u v h => if_neg fun h' => h h'.2
  have hoff : ∀ i, i + 1 < s.n → ∀ j, dot s.across (S.P (i + 1) j) ≠ y0 := by
    intro i hi j h
    obtain ⟨y, hy⟩ := c1 (i + 1) hi
    rw [across_point hg hS hy j hl] at h
    have h3 := station_first hg hs hx i y hy
    have : (y.sp - x.sp) * s.span = 0 := by simp only [y0] at h; linarith
    rcases mul_eq_zero.1 this with h | h
    · linarith
    · exact hspan h
  have hon : ∀ j, dot s.across (S.P 0 j) = y0 := fun j => across_point hg hS hx j hl
  refine ⟨e, he, hz, ?_⟩
  rw [surf_sum he, hS.2.1]
  unfold Surf.rim
  simp only [edgeSum_append, edgeSum_map, range_sum, hS.1]
  have r1 : ∑ j ∈ Finset.range 49, e (S.P 0 j) (S.P 0 (j + 1)) = dot d d := by
    have : ∀ j, e (S.P 0 j) (S.P 0 (j + 1)) = dot d (S.P 0 (j + 1)) - dot d (S.P 0 j) := by
      intro j
      simp only [e]
      rw [if_pos ⟨hon j, hon (j + 1)⟩, dot_sub]
    simp only [this]
    rw [Finset.sum_range_sub (fun j => dot d (S.P 0 j)), ← dot_sub]
  have r2 : ∑ i ∈ Finset.range (s.n - 1), e (S.P i 49) (S.P (i + 1) 49) = 0 :=
    Finset.sum_eq_zero fun i hi => hz' _ _ (hoff i (by have := Finset.mem_range.1 hi; omega) _)
  have r3 : ∑ j ∈ Finset.range 49, e (S.P (s.n - 1) (j + 1)) (S.P (s.n - 1) j) = 0 :=
    Finset.sum_eq_zero fun j _ => hz _ _ (by
      obtain ⟨m, hm⟩ : ∃ m, s.n - 1 = m + 1 := ⟨s.n - 2, by omega⟩
      rw [hm]
      exact hoff m (by omega) _)
  have r4 : ∑ i ∈ Finset.range (s.n - 1), e (S.P (i + 1) 0) (S.P i 0) = 0 :=
    Finset.sum_eq_zero fun i hi => hz _ _ (hoff i (by have := Finset.mem_range.1 hi; omega) _)
  rw [r1, r2, r3, r4]
  have hd : d ≠ 0 := sub_ne_zero.2 hgap
  simp only [Bool.false_eq_true, if_false, one_mul, add_zero]
  exact fun h => hd (dot_self_eq_zero.1 h)

end

/-- the outline of a four-digit section of any thickness is open at the trailing edge, its upper end above its lower end -/
theorem outline_gap {l : List Char} {O : ℕ → ℝ × ℝ} {m p t : ℝ} (h : plotNACA flt l = .ok O) (hd : FourDigits flt l m p t) (ht : 0 < t) :
    (O 49).2 < (O 0).2 := by
  obtain ⟨-, hO⟩ := plot_point h hd
  obtain ⟨-, h0⟩ := hO 0
  obtain ⟨-, h1⟩ := hO 49
  have e0 : outStation 0 = 1 := by unfold outStation; norm_num
  have e1 : outStation 49 = 1 := by unfold outStation; norm_num
  have s0 : outSide 0 = -1 := by unfold outSide; norm_num
  have s1 : outSide 49 = 1 := by unfold outSide; norm_num
  rw [e0, s0] at h0
  rw [e1, s1] at h1
  have hh : 0 < halfThickness t 1 := by
    unfold halfThickness
    norm_num
    linarith
  have hq : 0 < 1 / Real.sqrt (1 + nacaSlope ⟨m, p, t⟩ 1 ^ 2) := by positivity
  have := mul_pos hh hq
  linarith

/-- the outlines of uncambered sections run forward along the lower side, up at the nose, and aft along the upper side -/
theorem outline_runs {l : List Char} {O : ℕ → ℝ × ℝ} {m p t : ℝ} (h : plotNACA flt l = .ok O) (hd : FourDigits flt l m p t)
    (hm : m = 0 ∨ p = 0) (ht : 0 < t) :
    (∀ j < 24, (O j).1 < (O (j + 1)).1) ∧ ((O 25).1 = (O 24).1 ∧ (O 25).2 < (O 24).2) ∧ ∀ j, 24 < j → j < 49 → (O (j + 1)).1 < (O j).1 := by
  obtain ⟨-, hO⟩ := plot_point h hd
  have hs : ∀ x, nacaSlope ⟨m, p, t⟩ x = 0 := by
    intro x; unfold nacaSlope; rw [if_pos hm]
  have hX : ∀ j, (O j).1 = 1 / 4 - outStation j := by
    intro j
    have := (hO j).1
    simp only [hs] at this
    norm_num at this
    linarith
  have hcos : ∀ a b : ℝ, 0 ≤ a → a < b → b ≤ Real.pi → Real.cos b < Real.cos a := fun a b h1 h2 h3 =>
    Real.cos_lt_cos_of_nonneg_of_le_pi h1 h3 h2
  have hpi := Real.pi_pos
  refine ⟨fun j hj => ?_, ⟨?_, ?_⟩, fun j h1 h2 => ?_⟩
  · rw [hX, hX]
    have hj' : (j : ℝ) + 1 ≤ 24 := by exact_mod_cast hj
    have := hcos (-(Real.pi * (2 * ((j : ℝ) + 1) / 49 - 1))) (-(Real.pi * (2 * (j : ℝ) / 49 - 1))) (by nlinarith) (by nlinarith)
      (by have : (0 : ℝ) ≤ j := Nat.cast_nonneg j
          nlinarith)
    rw [Real.cos_neg, Real.cos_neg] at this
    unfold outStation
    push_cast
    linarith
  · rw [hX, hX]
    unfold outStation
    rw [show Real.pi * (2 * ((25 : ℕ) : ℝ) / 49 - 1) = -(Real.pi * (2 * ((24 : ℕ) : ℝ) / 49 - 1)) by push_cast; ring, Real.cos_neg]
  · have h24 := (hO 24).2
    have h25 := (hO 25).2
    have e : outStation 25 = outStation 24 := by
      unfold outStation
      rw [show Real.pi * (2 * ((25 : ℕ) : ℝ) / 49 - 1) = -(Real.pi * (2 * ((24 : ℕ) : ℝ) / 49 - 1)) by push_cast; ring, Real.cos_neg]
    have c0 : camberLine m p (outStation 24) = 0 := by unfold camberLine; rw [if_pos hm]
    rw [e] at h25
    simp only [hs, c0] at h24 h25
    have s0 : outSide 24 = -1 := by unfold outSide; norm_num
    have s1 : outSide 25 = 1 := by unfold outSide; norm_num
    rw [s0] at h24
    rw [s1] at h25
    norm_num at h24 h25
    have hpos : 0 < outStation 24 := by
      unfold outStation
      have : Real.cos (Real.pi * (2 * ((24 : ℕ) : ℝ) / 49 - 1)) < 1 := by
        have := hcos 0 (-(Real.pi * (2 * ((24 : ℕ) : ℝ) / 49 - 1))) le_rfl (by push_cast; nlinarith) (by push_cast; nlinarith)
        rwa [Real.cos_neg, Real.cos_zero] at this
      linarith
    have hne := halfThickness_pos ht hpos (outStation_le 24)
    linarith
  · rw [hX, hX]
    have hj' : (25 : ℝ) ≤ j := by exact_mod_cast h1
    have hj2 : (j : ℝ) + 1 ≤ 49 := by exact_mod_cast h2
    have := hcos (Real.pi * (2 * (j : ℝ) / 49 - 1)) (Real.pi * (2 * ((j : ℝ) + 1) / 49 - 1)) (by nlinarith) (by nlinarith) (by nlinarith)
    unfold outStation
    push_cast
    linarith

/-- interpolation keeps an order -/
theorem between_lt {sp a b a' b' : ℝ} (h0 : 0 < sp) (h1 : sp < 1) (h : a < b) (h' : a' < b') :
    (1 - sp) * a + sp * a' < (1 - sp) * b + sp * b' := by
  have := mul_lt_mul_of_pos_left h (sub_pos.2 h1)
  have := mul_lt_mul_of_pos_left h' h0
  linarith

/-- **C115, uncambered sections.** A segment whose airfoils are four-digit sections without camber is drawn with all triangles facing outwards, at any
sweep, dihedral, twist and taper: those of the lower side (`j < 24`) face down, those of the upper side (`24 < j`) up, and those of the nose
forward, as seen from the section on whose outline they have an edge. -/
theorem C115_outward_partial (hg : mkGrid (built nm pos ops) c = .ok g) {k : ℕ} {s : Seg} {L R : ℕ → ℝ × ℝ} {S : Surf}
    (hs : (built nm pos ops).segments[k]? = some s) (hS : DrawsSegment (built nm pos ops) g k s L R S)
    {lL lR : List Char} {mL pL tL mR pR tR : ℝ} (hL : plotNACA flt lL = .ok L) (hR : plotNACA flt lR = .ok R)
    (dL : FourDigits flt lL mL pL tL) (dR : FourDigits flt lR mR pR tR) (uL : mL = 0 ∨ pL = 0) (uR : mR = 0 ∨ pR = 0)
    (tL0 : 0 < tL) (tR0 : 0 < tR) {i : ℕ} {x y : GridSec} (hx : SectionOf (built nm pos ops) g k s i x)
    (hy : SectionOf (built nm pos ops) g k s (i + 1) y) (hc : 0 < s.rootChord ∧ 0 < s.tipChord) (hspan : 0 < s.span) (j : ℕ) (hj : j < 49) :
    ∃ f₁ f₂ : Facet, halves S.rev (S.P i j) (S.P i (j + 1)) (S.P (i + 1) (j + 1)) (S.P (i + 1) j) = [f₁, f₂] ∧
      ∀ f z, (f, z) = (f₁, x) ∨ (f, z) = (f₂, y) →
        (j < 24 → dot f.normal z.un < 0) ∧ (j = 24 → dot f.normal z.un = 0 ∧ dot f.normal z.ua < 0) ∧ (24 < j → 0 < dot f.normal z.un) := by
  obtain ⟨f₁, f₂, h1, h2⟩ := C115_facing hg hs hS hx hy hc hspan j
  obtain ⟨a1, ⟨a2, a3⟩, a4⟩ := outline_runs hL dL uL tL0
  obtain ⟨b1, ⟨b2, b3⟩, b4⟩ := outline_runs hR dR uR tR0
  obtain ⟨-, c2, -⟩ := C09_partition hg k s hs
  refine ⟨f₁, f₂, h1, fun f z hz => ?_⟩
  obtain ⟨k1, k2, k3⟩ := h2 f z hz
  have hsp : 0 < z.sp ∧ z.sp < 1 := by
    rcases hz with h | h <;> cases h
    · obtain ⟨-, q1, q2, q3, q4, -⟩ := c2 _ _ hx
      exact ⟨by linarith, by linarith⟩
    · obtain ⟨-, q1, q2, q3, q4, -⟩ := c2 _ _ hy
      exact ⟨by linarith, by linarith⟩
  refine ⟨fun h => k2 (between_lt hsp.1 hsp.2 (a1 j h) (b1 j h)), fun h => ?_, fun h => k1 (between_lt hsp.1 hsp.2 (a4 j h hj) (b4 j h hj))⟩
  subst h
  refine k3 ?_ (between_lt hsp.1 hsp.2 a3 b3)
  unfold between
  simp only [a2, b2]

/-- the first outline of the segment is open as well -/
theorem segment_gap (hg : mkGrid (built nm pos ops) c = .ok g) {k : ℕ} {s : Seg} {L R : ℕ → ℝ × ℝ} {S : Surf}
    (hs : (built nm pos ops).segments[k]? = some s) (hS : DrawsSegment (built nm pos ops) g k s L R S) {x : GridSec}
    (hx : SectionOf (built nm pos ops) g k s 0 x) (hc : x.chord ≠ 0) (hL : (L 49).2 < (L 0).2) (hR : (R 49).2 < (R 0).2) :
    S.P 0 49 ≠ S.P 0 0 := by
  intro h
  have h1 := outline_step hS hx 0 49
  rw [h, sub_self] at h1
  obtain ⟨-, f2, -, f4, -⟩ := C12_frames hg k s 0 x hx
  have h2 := congrArg (fun v => dot x.un v) h1
  simp only [dot_zero, dot_add, dot_smul, f2, dot_comm x.un x.ua, f4] at h2
  obtain ⟨-, c2, -⟩ := C09_partition hg k s hs
  obtain ⟨-, q1, q2, q3, q4, -⟩ := c2 _ _ hx
  have h3 : (between L R x.sp 49).2 < (between L R x.sp 0).2 := between_lt (by linarith) (by linarith) hL hR
  have : x.chord * ((between L R x.sp 49).2 - (between L R x.sp 0).2) = 0 := by linarith
  rcases mul_eq_zero.1 this with h | h
  · exact hc h
  · linarith

/-- **C115 fails: no segment is closed.** In the file of an aircraft built through the API, the surface of a segment with two or more sections, whose
airfoils are four-digit sections with some thickness, is open: some edge is run through more often in one direction than in the
other. -/
theorem C115_segment_refuted (hg : mkGrid (built nm pos ops) c = .ok g) (hn : ∀ s ∈ (built nm pos ops).segments, 1 ≤ s.n)
    {props : List (PropM ι)} (hp : ∀ M ∈ props, Constructed M) {mesh : List Facet}
    (h : createStl flt (some ((built nm pos ops).segments, g)) props = .ok mesh) :
    ∃ (Ws : List Surf) (rest : List Facet), mesh = Ws.flatMap Surf.facets ++ rest ∧ Ws.length = (built nm pos ops).segments.length ∧
      ∀ (k : ℕ) (s : Seg) (S : Surf), (built nm pos ops).segments[k]? = some s → Ws[k]? = some S → 2 ≤ s.n → s.span ≠ 0 →
        0 < s.rootChord → 0 < s.tipChord → (∀ a ∈ [s.root, s.tip], WellNamed a.name ∧
          ∃ m p t, FourDigits flt (ownDigits a.name) m p t ∧ 0 < t) → ¬ ClosedMesh S.facets := by
  obtain ⟨Ws, Bs, h0, h1, -, h3, -⟩ := C72_aircraft hg hn hp h
  refine ⟨Ws, Bs.flatten.flatMap Surf.facets, by rw [h3, List.flatMap_append], h0, fun k s S hs hS h2 hspan hc0 hc1 haf hclosed => ?_⟩
  obtain ⟨L, R, oL, oR, hD⟩ := h1 k s S hs hS
  have hl : s.atLeft ∈ [s.root, s.tip] := by unfold Seg.atLeft; cases s.side <;> simp [leftRight]
  have hr : s.atRight ∈ [s.root, s.tip] := by unfold Seg.atRight; cases s.side <;> simp [leftRight]
  obtain ⟨wL, m1, p1, t1, d1, q1⟩ := haf _ hl
  obtain ⟨wR, m2, p2, t2, d2, q2⟩ := haf _ hr
  obtain ⟨c1, c2, -⟩ := C09_partition hg k s hs
  obtain ⟨x, hx⟩ := c1 0 (by omega)
  obtain ⟨l, r, hl, -⟩ := C10_points hg k s 0 x hx
  obtain ⟨e, e1, -, e3⟩ := segment_open hg hs hD hx h2 hspan (segment_gap hg hs hD hx (chord_pos hg hx hc0 hc1).ne' (outline_gap (oL wL) d1 q1)
    (outline_gap (oR wR) d2 q2)) hl
  exact e3 (closed_sum hclosed e1)

/-- **C115 fails.** It is not true of all aircraft that the file shows a closed surface: a plain straight wing. -/
theorem C115_refuted {ι : Type} : ¬ ∀ (nm : String) (pos : Option V3) (ops : List PlaneOp) (c : Bool) (g : Grid) (mesh : List Facet),
    mkGrid (built nm pos ops) c = .ok g → createStl (ι := ι) digitsFlt (some ((built nm pos ops).segments, g)) [] = .ok mesh →
    ClosedMesh mesh := by
  intro H
  obtain ⟨g, mesh, hg, hm, -⟩ := strut_mesh (ι := ι)
  have hclosed := H "straight" none strutOps true g mesh hg hm
  have hg' : mkGrid (built "straight" none strutOps) true = .ok g := hg
  have hn : ∀ s ∈ (built "straight" none strutOps).segments, 1 ≤ s.n := by
    intro s hs
    have hs : s ∈ strutPlane.segments := hs
    rw [strut_segments] at hs
    simp only [List.mem_cons, List.not_mem_nil, or_false] at hs
    rcases hs with rfl | rfl <;> simp [strutSeg]
  obtain ⟨Ws, Bs, h0, h1, h2, h3, -⟩ := C72_aircraft hg' hn (by simp) hm
  cases h2
  simp only [List.flatten_nil, List.append_nil] at h3
  have hlen : Ws.length = 2 := h0.trans rfl
  obtain ⟨A, B, rfl⟩ := List.length_eq_two.1 hlen
  have s0 : (built "straight" none strutOps).segments[0]? = some (strutSeg .left) := rfl
  have s1 : (built "straight" none strutOps).segments[1]? = some (strutSeg .right) := rfl
  obtain ⟨L, R, oL, oR, hA⟩ := h1 0 _ A s0 rfl
  obtain ⟨L', R', -, -, hB⟩ := h1 1 _ B s1 rfl
  have hw : WellNamed "NACA0012" := fun _ => by decide
  have pL : plotNACA digitsFlt ['0', '0', '1', '2'] = .ok L := by rw [← own_0012]; exact oL hw
  have pR : plotNACA digitsFlt ['0', '0', '1', '2'] = .ok R := by rw [← own_0012]; exact oR hw
  obtain ⟨c1, c2, -⟩ := C09_partition hg' 0 _ s0
  obtain ⟨x, hx⟩ := c1 0 (by simp [strutSeg])
  obtain ⟨l, r, hl, hr, -⟩ := C10_points hg' 0 _ 0 x hx
  have hch : x.chord ≠ 0 := (chord_pos hg' hx (by simp [strutSeg]) (by simp [strutSeg])).ne'
  obtain ⟨e, e1, e2, e3⟩ := segment_open hg' s0 hA hx (by simp [strutSeg]) (by simp [strutSeg])
    (segment_gap hg' s0 hA hx hch (outline_gap pL digits_0012 (by norm_num)) (outline_gap pR digits_0012 (by norm_num))) hl
  have hsum := closed_sum hclosed e1
  rw [h3] at hsum
  simp only [List.flatMap_cons, List.flatMap_nil, List.append_nil, List.flatMap_append, edgeSum_append] at hsum
  have hB0 : edgeSum e (B.facets.flatMap Facet.edges) = 0 := by
    rw [edgeSum_flatMap]
    refine List.sum_eq_zero fun a ha => ?_
    obtain ⟨f, hf, rfl⟩ := List.mem_map.1 ha
    have hz : ∀ u ∈ f.corners, ∀ v, e u v = 0 := by
      intro u hu v
      refine e2 u v ?_
      obtain ⟨d1, -⟩ := C09_partition hg' 1 _ s1
      obtain ⟨x', hx'⟩ := d1 0 (by simp [strutSeg])
      obtain ⟨l', r', hl', hr', -⟩ := C10_points hg' 1 _ 0 x' hx'
      obtain ⟨τ, t1, t2, t3⟩ := corner_inside hg' s1 hB hf hu hl'
      obtain ⟨-, q1, q2, q3, q4, -⟩ := c2 _ _ hx
      have eq : (strutSeg .right).across = (strutSeg .left).across := by simp [Seg.across, strutSeg]
      have y1 : l = ⟨0, -5, 0⟩ := by
        have h : strutPlane.segPosition (strutSeg .left) .leftTip = .ok l := hl
        rw [strut_tip] at h
        simp [Seg.tipOffset, strutSeg, addOff] at h
        exact h.symm
      have y2 : l' = 0 := by
        have h : strutPlane.segPosition (strutSeg .right) .leftTip = .ok l' := hl'
        rw [strut_tip] at h
        simp [Seg.tipOffset, strutSeg, addOff] at h
        rw [← h]; rfl
      rw [← eq, t3, y1, y2]
      simp [Seg.across, strutSeg, dot]
      intro h
      nlinarith
    simp [Facet.edges, hz _ (show f.a ∈ f.corners by simp [Facet.corners]), hz _ (show f.b ∈ f.corners by simp [Facet.corners]),
      hz _ (show f.c ∈ f.corners by simp [Facet.corners])]
  exact e3 (by linarith)

/-- the straight wing meets the assumptions of `C115_outward_partial`: the triangles at the third section of its left half, on the upper side -/
example : ∃ g, mkGrid strutPlane true = .ok g ∧ ∃ (S : Surf) (f₁ f₂ : Facet), (∃ mesh Ws, createStl (ι := Unit) digitsFlt
      (some (strutPlane.segments, g)) [] = .ok mesh ∧ mesh = S.facets ++ Ws) ∧
    halves S.rev (S.P 2 30) (S.P 2 31) (S.P 3 31) (S.P 3 30) = [f₁, f₂] ∧
    ∃ x, SectionOf strutPlane g 0 (strutSeg .left) 2 x ∧ 0 < dot f₁.normal x.un := by
  obtain ⟨g, mesh, hg, hm, -⟩ := strut_mesh (ι := Unit)
  have hg' : mkGrid (built "straight" none strutOps) true = .ok g := hg
  have hn : ∀ s ∈ (built "straight" none strutOps).segments, 1 ≤ s.n := by
    intro s hs
    have hs : s ∈ strutPlane.segments := hs
    rw [strut_segments] at hs
    simp only [List.mem_cons, List.not_mem_nil, or_false] at hs
    rcases hs with rfl | rfl <;> simp [strutSeg]
  obtain ⟨Ws, Bs, h0, h1, h2, h3, -⟩ := C72_aircraft hg' hn (by simp) hm
  cases h2
  have hlen : Ws.length = 2 := h0.trans rfl
  obtain ⟨A, B, rfl⟩ := List.length_eq_two.1 hlen
  have s0 : (built "straight" none strutOps).segments[0]? = some (strutSeg .left) := rfl
  obtain ⟨L, R, oL, oR, hA⟩ := h1 0 _ A s0 rfl
  have hw : WellNamed "NACA0012" := fun _ => by decide
  have pL : plotNACA digitsFlt ['0', '0', '1', '2'] = .ok L := by rw [← own_0012]; exact oL hw
  have pR : plotNACA digitsFlt ['0', '0', '1', '2'] = .ok R := by rw [← own_0012]; exact oR hw
  obtain ⟨c1, c2, -⟩ := C09_partition hg' 0 _ s0
  obtain ⟨x, hx⟩ := c1 2 (by simp [strutSeg])
  obtain ⟨y, hy⟩ := c1 3 (by simp [strutSeg])
  obtain ⟨f₁, f₂, k1, k2⟩ := C115_outward_partial hg' s0 hA pL pR digits_0012 digits_0012 (.inl rfl) (.inl rfl) (by norm_num) (by norm_num)
    hx hy (by simp [strutSeg]) (by simp [strutSeg]) 30 (by norm_num)
  exact ⟨g, hg, A, f₁, f₂, ⟨mesh, B.facets, hm, by rw [h3]; simp⟩, k1, x, hx, (k2 f₁ x (.inl rfl)).2.2 (by norm_num)⟩

end Verif
