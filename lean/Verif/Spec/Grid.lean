import Verif.Model.Grid

/-!
# Specification vocabulary: sections of a segment in a grid
-/

namespace Verif
open V3

/-- `data[start:stop]` -/
def Grid.slice (g : Grid) (ab : ℕ × ℕ) : List GridSec := (g.data.take ab.2).drop ab.1

/-- `x` is what the grid `g` of the plane `p` reports for the `i`-th section (counted from the left) of segment number
`k`, which is the segment `s`. -/
def SectionOf (p : Plane) (g : Grid) (k : ℕ) (s : Seg) (i : ℕ) (x : GridSec) : Prop :=
  p.segments[k]? = some s ∧ ∃ a b, g.slices[k]? = some (a, b) ∧ a + i < b ∧ g.data[a + i]? = some x

/-- Consecutive ranges: every range starts where the previous one ends, and they run from `a` to `z`. -/
inductive Consecutive : ℕ → List (ℕ × ℕ) → ℕ → Prop
  | nil (a : ℕ) : Consecutive a [] a
  | cons {a b z : ℕ} {l : List (ℕ × ℕ)} : a ≤ b → Consecutive b l z → Consecutive a ((a, b) :: l) z

/-- Spanwise station measured from the root: sections are numbered from left to right, so on a left segment the root
is at station 1. -/
noncomputable def rootStation (side : Side) (s : ℝ) : ℝ :=
  match side with
  | .left => 1 - s
  | .right => s

/-- chord of a segment at spanwise station `t` (counted from the left) -/
noncomputable def Seg.chordAt (s : Seg) (t : ℝ) : ℝ :=
  (1 - rootStation s.side t) * s.rootChord + rootStation s.side t * s.tipChord

/-- the airfoil at the left end of a segment, seen in flight direction -/
def Seg.atLeft (s : Seg) : Airfoil :=
  match s.side with
  | .left => s.tip
  | .right => s.root

/-- the airfoil at the right end of a segment -/
def Seg.atRight (s : Seg) : Airfoil :=
  match s.side with
  | .left => s.root
  | .right => s.tip

/-- A well-formed plane: wings attach only to tips that exist on wings added before, no sweep of 90 degrees (or an odd
multiple), no empty span, at least one section per segment, control surfaces with a start different from their end and
chord fractions in [0,1]. -/
structure WellFormed (p : Plane) : Prop where
  attach : ∀ (b : ℕ) (w : Wing), p.heap[b]? = some w → ∀ s ∈ w.segments, ∀ a, s.parent = .wing a →
    a < b ∧ s.connectAt = s.side.str ++ "_tip" ∧ ∃ wa q, p.heap[a]? = some wa ∧ q ∈ wa.segments ∧ q.side = s.side
  sweep : ∀ (b : ℕ) (w : Wing), p.heap[b]? = some w → ∀ s ∈ w.segments, Real.cos (s.sweep * Real.pi / 180) ≠ 0
  span : ∀ s ∈ p.segments, s.span ≠ 0
  sections : ∀ s ∈ p.segments, 0 < s.n
  ctrlSpan : ∀ s ∈ p.segments, s.cs.spanRoot ≠ s.cs.spanTip
  ctrlChord : ∀ s ∈ p.segments, 0 ≤ s.cs.chordRoot ∧ s.cs.chordRoot ≤ 1 ∧ 0 ≤ s.cs.chordTip ∧ s.cs.chordTip ≤ 1

end Verif
