import Verif.Model.Stl
import Verif.Spec.Blade
import Verif.Spec.Grid

/-!
# Specification vocabulary for the STL output

Of the model only the data structures, the grid (`SectionOf`), the stations of the blades and `plotNACA` (outlines of NACA
sections, described in `Spec/Naca`) are used.
-/

namespace Verif
open V3

/-- a name `create_stl` promises to draw: `NACA` followed by four characters, or no NACA name at all -/
def WellNamed (name : String) : Prop :=
  (name.toList.take 4 = "NACA".toList ∨ name.toList.take 4 = "naca".toList) → name.toList.length = 8

/-- the four digits the name stands for: its own, or 2412 for an airfoil that is not a NACA airfoil -/
def ownDigits (name : String) : List Char :=
  if name.toList.take 4 = "NACA".toList ∨ name.toList.take 4 = "naca".toList then name.toList.drop 4 else "2412".toList

/-- a surface: `rows` outlines of 50 points each, and which way round its triangles are -/
structure Surf where
  P : ℕ → ℕ → V3
  rows : ℕ
  rev : Bool := false

/-- two triangles that make up the quadrilateral `a b c d` (corners in this order around it), cut from `b` to `d` -/
def halves (rev : Bool) (a b c d : V3) : List Facet :=
  if rev then [⟨a, d, b⟩, ⟨b, d, c⟩] else [⟨a, b, d⟩, ⟨b, c, d⟩]

/-- The triangles of a surface: for every two neighbouring outlines and every two neighbouring points, those of the quadrilateral
between them. -/
def Surf.facets (s : Surf) : List Facet :=
  (List.range (s.rows - 1)).flatMap fun i => (List.range 49).flatMap fun j =>
    halves s.rev (s.P i j) (s.P i (j + 1)) (s.P (i + 1) (j + 1)) (s.P (i + 1) j)

/-- the outline of the named airfoil, if the name is one `create_stl` promises to draw -/
def OwnOutline (flt : List Char → Option ℝ) (name : String) (O : ℕ → ℝ × ℝ) : Prop :=
  WellNamed name → plotNACA flt (ownDigits name) = .ok O

/-- `S` is the surface of segment number `k` of the plane `p`, which is `s`, with the outlines `L` and `R` at its left and right end: one
outline for each section of the grid, interpolated between the ends, as large as the chord, and placed at the control point
with the axial and normal vector the lifting-line model uses for this section.  Outlines are given by the distances
(in chords) ahead of the quarter chord and below the chord line. -/
def DrawsSegment (p : Plane) (g : Grid) (k : ℕ) (s : Seg) (L R : ℕ → ℝ × ℝ) (S : Surf) : Prop :=
  S.rows = s.n ∧ S.rev = false ∧ ∀ i x, SectionOf p g k s i x → ∀ j, S.P i j =
    x.rcp - (x.chord * ((1 - x.sp) * (L j).1 + x.sp * (R j).1)) • x.ua - (x.chord * ((1 - x.sp) * (L j).2 + x.sp * (R j).2)) • x.un

/-- the corners of a triangle -/
def Facet.corners (f : Facet) : List V3 := [f.a, f.b, f.c]

/-- the direction across the sections of a segment, from its left to its right end: to the right, and up or down with the dihedral (`z` points
down) -/
noncomputable def Seg.across (s : Seg) : V3 :=
  ⟨0, Real.cos (s.dihedral * Real.pi / 180), match s.side with
    | .right => -Real.sin (s.dihedral * Real.pi / 180)
    | .left => Real.sin (s.dihedral * Real.pi / 180)⟩

/-- the triangles reach from the left to the right end of the segment `s` of `p`: there is a corner in the plane of either end -/
def ReachesEnds (p : Plane) (s : Seg) (mesh : List Facet) : Prop :=
  ∀ t v, (t = .leftTip ∨ t = .rightTip) → p.segPosition s t = .ok v → ∃ f ∈ mesh, ∃ w ∈ f.corners, dot s.across w = dot s.across v

/-- the edges of a triangle, in the direction in which they are run through -/
def Facet.edges (f : Facet) : List (V3 × V3) := [(f.a, f.b), (f.b, f.c), (f.c, f.a)]

open Classical in
/-- how many times the edge from `u` to `v` occurs in a list of edges -/
noncomputable def times (u v : V3) (l : List (V3 × V3)) : ℕ := l.count (u, v)

/-- A closed surface, consistently oriented: every edge of a triangle is an edge of another triangle, which runs through it in the other
direction. -/
def ClosedMesh (mesh : List Facet) : Prop :=
  ∀ u v, times u v (mesh.flatMap Facet.edges) = times v u (mesh.flatMap Facet.edges)

/-- the rim of a surface: first outline, trailing edge of the upper side, last outline (backwards), trailing edge of the lower side (backwards) -/
def Surf.rim (s : Surf) : List (V3 × V3) :=
  (List.range 49).map (fun j => (s.P 0 j, s.P 0 (j + 1))) ++ (List.range (s.rows - 1)).map (fun i => (s.P i 49, s.P (i + 1) 49)) ++
  ((List.range 49).map (fun j => (s.P (s.rows - 1) (j + 1), s.P (s.rows - 1) j)) ++
    (List.range (s.rows - 1)).map (fun i => (s.P (i + 1) 0, s.P i 0)))

/-- the normal of a triangle (of twice its area as length), on the side from which its corners are seen counterclockwise -/
noncomputable def Facet.normal (f : Facet) : V3 := cross (f.b - f.a) (f.c - f.a)

/-- rotation about the x axis -/
noncomputable def rotX (a : ℝ) (v : V3) : V3 :=
  ⟨v.x, Real.cos a * v.y - Real.sin a * v.z, Real.sin a * v.y + Real.cos a * v.z⟩

/-- rotation about the y axis -/
noncomputable def rotY (a : ℝ) (v : V3) : V3 :=
  ⟨Real.cos a * v.x + Real.sin a * v.z, v.y, -Real.sin a * v.x + Real.cos a * v.z⟩

/-- rotation about the z axis -/
noncomputable def rotZ (a : ℝ) (v : V3) : V3 :=
  ⟨Real.cos a * v.x - Real.sin a * v.y, Real.sin a * v.x + Real.cos a * v.y, v.z⟩

/-- rotation by the angle `a` about the axis `u` (of length 1), right-handed -/
noncomputable def turn (u : V3) (a : ℝ) (v : V3) : V3 :=
  Real.cos a • v + Real.sin a • cross u v + ((1 - Real.cos a) * dot u v) • u

/-- the direction a propeller points to: elevation and heading, in degrees -/
noncomputable def pointing (elevation heading : ℝ) : V3 :=
  ⟨Real.cos (rad elevation) * Real.cos (rad heading), Real.cos (rad elevation) * Real.sin (rad heading), -Real.sin (rad elevation)⟩

/-- `o` is point `j` of the outline at station `i` of the blades: that of NACA 2412 if no airfoil was given, that of the only
airfoil, or interpolated between the airfoils where they belong -/
def OutlineAlong (flt : List Char → Option ℝ) (q : PropGeom) (i j : ℕ) (o : ℝ × ℝ) : Prop :=
  (q.airfoils = [] ∧ ∃ O, OwnOutline flt "NACA2412" O ∧ o = O j) ∨
  (∃ n a O, q.airfoils = [(n, a)] ∧ OwnOutline flt a.name O ∧ o = O j) ∨
  (2 ≤ q.airfoils.length ∧ ∃ Q : List (ℝ × Airfoil × (ℕ → ℝ × ℝ)),
    (∃ l, Placed q l ∧ (Q.map fun p => (p.1, p.2.1)).Perm l) ∧ (∀ p ∈ Q, OwnOutline flt p.2.1.name p.2.2) ∧
    Interpolates (Q.map fun p => (p.1, (p.2.2 j).1)) (stationAt q i) o.1 ∧
    Interpolates (Q.map fun p => (p.1, (p.2.2 j).2)) (stationAt q i) o.2)

/-- The point `o` of a section at radius `r` of a blade that points up (`-z`) on a propeller that points to `x`.  The chord makes the angle
`a` with the plane of rotation; the leading edge moves to `+y` (`rot = 1`) or `-y` (`rot = -1`). -/
noncomputable def bladeSection (rot r chord a : ℝ) (o : ℝ × ℝ) : V3 :=
  ⟨0, 0, -r⟩ + (o.1 * chord) • ⟨Real.sin a, rot * Real.cos a, 0⟩ - (o.2 * chord) • ⟨Real.cos a, -(rot * Real.sin a), 0⟩

/-- `S` are the surfaces of the blades of the propeller `M`, with the chords at the angles `angle` to the plane of rotation: as many as
it has blades, one outline per node, drawn with the airfoils the propeller names, blade `b` turned by the fraction `b/B` of a
full turn, then turned into the direction of the propeller and moved to its position -/
def DrawsProp {ι : Type} (flt : List Char → Option ℝ) (M : PropM ι) (angle : ℕ → ℝ) (S : List Surf) : Prop :=
  S.length = M.geom.blades ∧ ∃ o : ℕ → ℕ → ℝ × ℝ, (∀ i j, OutlineAlong flt M.geom i j (o i j)) ∧
    ∀ b (h : b < S.length), (S[b]).rows = M.geom.nodes ∧ ((S[b]).rev = true ↔ M.rot ≠ 1) ∧
      ∀ i j, i < M.geom.nodes → (S[b]).P i j = M.geom.position + rotZ (rad M.geom.orientation.2) (rotY (rad M.geom.orientation.1)
        (rotX (2 * Real.pi * (b / M.geom.blades)) (bladeSection M.rot (M.stn i).r (M.stn i).cb (angle i) (o i j))))

end Verif
