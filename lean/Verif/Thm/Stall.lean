import Verif.Model.Stall
import Verif.Thm.Grid
import Verif.Examples.UnitPlane

/-!
# The reported stall location (C38)
-/

namespace Verif
open V3

theorem filter_finRange_head {n : ℕ} {P : Fin n → Bool} {i : Fin n} {t : List (Fin n)}
    (h : (List.finRange n).filter P = i :: t) : P i = true ∧ ∀ j < i, P j = false := by
  have hi : i ∈ (List.finRange n).filter P := by rw [h]; simp
  refine ⟨(List.mem_filter.1 hi).2, fun j hj => ?_⟩
  by_contra hP
  have hjm : j ∈ (List.finRange n).filter P := List.mem_filter.2 ⟨List.mem_finRange j, by simpa using hP⟩
  have hs : ((List.finRange n).filter P).Pairwise (· < ·) := (List.pairwise_lt_finRange n).filter _
  rw [h] at hs hjm
  rcases List.mem_cons.1 hjm with rfl | hjt
  · exact lt_irrefl _ hj
  · exact absurd (lt_trans hj ((List.pairwise_cons.1 hs).1 j hjt)) (lt_irrefl _)

/-- every entry of the arrays belongs to a segment -/
theorem section_of_index {nm : String} {pos : Option V3} {ops : List PlaneOp} {c : Bool} {g : Grid}
    (hg : mkGrid (built nm pos ops) c = .ok g) (m : Fin g.data.length) :
    ∃ (k : ℕ) (s : Seg) (i : ℕ), SectionOf (built nm pos ops) g k s i (g.data.get m) := by
  obtain ⟨_, _, hf, hj, _, _⟩ := C16_concatenation hg
  obtain ⟨k, ⟨⟨a, b⟩, hab, h1, h2⟩, _⟩ := hj m m.2
  simp only at h1 h2
  have hk : k < (built nm pos ops).segments.length := by
    rw [hf.length_eq]
    by_contra hcon
    rw [List.getElem?_eq_none (by omega)] at hab
    cases hab
  refine ⟨k, _, m - a, List.getElem?_eq_getElem hk, a, b, hab, by omega, ?_⟩
  rw [show a + (m.1 - a) = m.1 by omega, List.getElem?_eq_getElem m.2]
  rfl

/-- **C38.** On the grid of any plane built through the API, whatever the section lift coefficients: a stall location is
reported iff some section's lift coefficient exceeds its maximum; the section reported is the first such section, and
the report consists of the name of its segment and the distance of the section from the root as a fraction of the
semispan: the control point is that fraction of the way from the inner to the outer end of the segment, on both sides,
for every wing name. -/
theorem C38_stall_location (nm : String) (pos : Option V3) (ops : List PlaneOp) (c : Bool) (g : Grid)
    (hg : mkGrid (built nm pos ops) c = .ok g) (cg : V3) (cl : Fin g.data.length → ℝ) :
    ((findStall (g.geom cg).S cl).isSome ↔ ∃ m, (g.data.get m).clMax < cl m) ∧
    ∀ info, findStall (g.geom cg).S cl = some info →
      ∃ m, (g.data.get m).clMax < cl m ∧ (∀ m' < m, cl m' ≤ (g.data.get m').clMax) ∧
        ∃ (k : ℕ) (s : Seg) (i : ℕ), SectionOf (built nm pos ops) g k s i (g.data.get m) ∧ info.wing = s.name ∧
          ∃ inner outer, (built nm pos ops).segPosition s (match s.side with | .left => .rightTip | .right => .leftTip) = .ok inner ∧
            (built nm pos ops).segPosition s (match s.side with | .left => .leftTip | .right => .rightTip) = .ok outer ∧
            (g.data.get m).rcp = inner + info.span • (outer - inner) ∧ 0 < info.span ∧ info.span < 1 := by
  have hp := built_inv nm pos ops
  constructor
  · unfold findStall
    split
    · rename_i h
      simp only [Option.isSome_none, Bool.false_eq_true, false_iff, not_exists]
      intro m hm
      have : m ∈ stalledSections (g.geom cg).S cl :=
        List.mem_filter.2 ⟨List.mem_finRange m, by simpa [Grid.geom] using hm⟩
      rw [h] at this; simp at this
    · rename_i i t h
      simp only [Option.isSome_some, true_iff]
      have := (filter_finRange_head h).1
      exact ⟨i, by simpa [Grid.geom] using this⟩
  · intro info h
    unfold findStall at h
    split at h
    · cases h
    rename_i m t hm
    obtain ⟨h1, h2⟩ := filter_finRange_head hm
    refine ⟨m, by simpa [Grid.geom] using h1, fun m' hm' => by simpa [Grid.geom] using h2 m' hm', ?_⟩
    obtain ⟨k, s, i, hx⟩ := section_of_index hg m
    refine ⟨k, s, i, hx, ?_⟩
    have hname : (g.data.get m).name = s.name := by
      obtain ⟨_, l, r, _, _, _, _, _, he⟩ := sectionOf_eq hg hx
      rw [he]; rfl
    have hst := ((C09_partition hg k s hx.1).2.1 i _ hx)
    obtain ⟨l, r, hl, hr, _, hrcp, _⟩ := C10_points hg k s i _ hx
    obtain ⟨b, w, hb, hsw⟩ := mem_plane_segments (List.mem_of_getElem? hx.1)
    obtain ⟨wn, hwn⟩ := (hp.wing b w hb).named
    have hn := hwn s hsw
    simp only [Option.some.injEq] at h
    have hS : (g.geom cg).S m = (g.data.get m).toSection := rfl
    rw [hS, hname, hn] at h
    subst h
    refine ⟨by rw [hn], ?_⟩
    cases hside : s.side with
    | left =>
      refine ⟨r, l, hr, hl, ?_⟩
      have : ¬ (((Side.left.str ++ "_" ++ wn).toList).take 5 = "right".toList) := by
        simp [Side.str, String.toList_append]
      simp only [if_neg this]
      refine ⟨?_, by linarith, by linarith⟩
      rw [hrcp]; ext <;> simp <;> ring
    | right =>
      refine ⟨l, r, hl, hr, ?_⟩
      have : ((Side.right.str ++ "_" ++ wn).toList).take 5 = "right".toList := by
        simp [Side.str, String.toList_append]
      simp only [if_pos this]
      exact ⟨hrcp, by linarith, by linarith⟩

-- both outcomes occur on the grid of a concrete aircraft: no section above its maximum lift coefficient; only the right
-- (second) section above it, reported at half the semispan
example : ∃ g, mkGrid (built "unit" none unitOps) false = .ok g ∧ ∃ hn : g.data.length = 2,
    findStall (g.geom 0).S (fun _ => 1) = none ∧
    findStall (g.geom 0).S (fun m => if (m : ℕ) = 1 then 2 else 1) = some ⟨"right_w", 1 / 2⟩ := by
  obtain ⟨g, hg, a, b, hd, ha, hb, _⟩ := unit_grid false
  refine ⟨g, hg, ?_⟩
  obtain ⟨data, sl, ra⟩ := g
  simp only at hd
  subst hd
  refine ⟨rfl, ?_, ?_⟩
  · have : stalledSections (Grid.geom ⟨[a, b], sl, ra⟩ 0).S (fun _ => 1) = [] := by
      unfold stalledSections
      rw [List.filter_eq_nil_iff]
      intro i _
      have : ((Grid.geom ⟨[a, b], sl, ra⟩ 0).S i).clMax = 7 / 5 := by
        refine Fin.cases ?_ (fun j => ?_) i
        · exact congrArg Section.clMax ha
        · obtain ⟨j, hj⟩ := j
          have : j = 0 := by simp at hj; omega
          subst this
          exact congrArg Section.clMax hb
      rw [this]; norm_num
    unfold findStall; rw [this]
  · have : stalledSections (Grid.geom ⟨[a, b], sl, ra⟩ 0).S (fun m => if (m : ℕ) = 1 then 2 else 1) =
        [(⟨1, by simp⟩ : Fin 2)] := by
      unfold stalledSections
      have h0 : a.clMax = 7 / 5 := congrArg Section.clMax ha
      have h1 : b.clMax = 7 / 5 := congrArg Section.clMax hb
      show List.filter _ [(⟨0, by simp⟩ : Fin 2), ⟨1, by simp⟩] = _
      simp [Grid.geom, List.filter_cons, h0, h1]
      norm_num
    unfold findStall
    rw [this]
    have h2 : b.name = "right_w" := congrArg Section.name hb
    have h3 : b.sp = 1 / 2 := congrArg Section.sp hb
    have hb' : (Grid.geom ⟨[a, b], sl, ra⟩ 0).S (⟨1, by simp⟩ : Fin 2) = b.toSection := rfl
    simp only [hb', h2, h3]
    norm_num

end Verif
