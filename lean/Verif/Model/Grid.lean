import Verif.Model.Geometry
import Mathlib.Analysis.SpecialFunctions.Trigonometric.Inverse

/-!
# Model of the lifting-line grid (`machup/llgrid.py`)

The dictionary of arrays `LLGrid._data` is kept as one array of records (`GridSec`).  The arrays are allocated with
`get_num_sections()` blank entries and filled segment by segment through slices, as in the code.
-/

namespace Verif
open V3

/-- One entry of every array of `LLGrid._data` (`llgrid.py:38-87`). -/
structure GridSec extends Section where
  /-- `spacing_1` -/
  s1 : ℝ
  /-- `spacing_2` -/
  s2 : ℝ
  /-- `c_1` -/
  c1 : ℝ
  /-- `c_2` -/
  c2 : ℝ
  /-- `washout`, degrees -/
  washout : ℝ
  /-- `mount_angle`, degrees -/
  mount : ℝ
  /-- `Cm_a` (interpolated) -/
  cma : ℝ
  /-- `Cm_L0` (interpolated) -/
  cml0 : ℝ
  /-- `CD0` (interpolated) -/
  cd0 : ℝ
  /-- `CD1` (interpolated) -/
  cd1 : ℝ
  /-- `CD2` (interpolated) -/
  cd2 : ℝ

/-- entries of freshly allocated arrays: `np.zeros`, `np.empty(dtype=object)` for the names (`llgrid.py:38-87`) -/
def GridSec.blank : GridSec :=
  { name := "", sp := 0, rcp := 0, r1 := 0, r2 := 0, chord := 0, twist := 0, dihedral := 0, sweep := 0, area := 0
    cla := 0, al0 := 0, clMax := 0, left := ⟨0, 0, 0, 0, 0, 0, 0⟩, right := ⟨0, 0, 0, 0, 0, 0, 0⟩
    ua := 0, un := 0, us := 0, flapEff := 0, cmd := 0, ic2 := 0, mixA := 0, mixE := 0, mixR := 0, mixF := 0
    s1 := 0, s2 := 0, c1 := 0, c2 := 0, washout := 0, mount := 0, cma := 0, cml0 := 0, cd0 := 0, cd1 := 0, cd2 := 0 }

/-- entry `k` of `_cosine_spacing(n, offset)` (`llgrid.py:143-148`) -/
noncomputable def cosSpacing (n : ℕ) (offset : ℝ) (k : ℕ) : ℝ :=
  0.5 * (1 - Real.cos (Real.pi / n * (k - offset)))

/-- entry `k` of `_linear_spacing(n, offset)` (`llgrid.py:151-156`) -/
noncomputable def linSpacing (n : ℕ) (offset : ℝ) (k : ℕ) : ℝ := (k - offset) / n

/-- the spacing selected by `cosine_spacing` (`llgrid.py:124-129`) -/
noncomputable def spacing (cosine : Bool) (n : ℕ) (offset : ℝ) (k : ℕ) : ℝ :=
  if cosine then cosSpacing n offset k else linSpacing n offset k

/-- `s_cp[i]` (`llgrid.py:131`) -/
noncomputable def sCp (cosine : Bool) (n i : ℕ) : ℝ := spacing cosine n 0.5 (i + 1)
/-- `s_1[i]` (`llgrid.py:132`) -/
noncomputable def sC1 (cosine : Bool) (n i : ℕ) : ℝ := spacing cosine n 0 i
/-- `s_2[i]` (`llgrid.py:133`) -/
noncomputable def sC2 (cosine : Bool) (n i : ℕ) : ℝ := spacing cosine n 0 (i + 1)

/-- `_calc_unit_s` (`llgrid.py:173-181`) -/
noncomputable def unitS (l r : V3) : V3 := (1 / nrm (r - l)) • (r - l)

/-- `_calc_segment_points` at one station (`llgrid.py:158-170`) -/
noncomputable def segPoint (l r : V3) (s : ℝ) : V3 :=
  let u := unitS l r
  ⟨nrm (r - l) * s * u.x + l.x, nrm (r - l) * s * u.y + l.y, nrm (r - l) * s * u.z + l.z⟩

/-- root and tip value sorted to (left, right) as in `_calc_chord`, `_calc_coefficients` (`llgrid.py:186-192`,
`290-294`) -/
def leftRight {α : Type*} (side : Side) (root tip : α) : α × α :=
  match side with
  | .left => (tip, root)
  | .right => (root, tip)

/-- the seven coefficients of an airfoil (`llgrid.py:295-306`) -/
def Airfoil.coef (a : Airfoil) : AfCoef := ⟨a.cla, a.al0, a.cma, a.cml0, a.cd0, a.cd1, a.cd2⟩

/-- `_calc_unit_vectors` (`llgrid.py:261-286`): (axial, normal) for a mounting angle, washout and dihedral in degrees -/
noncomputable def frame (side : Side) (mount washout dihedral : ℝ) : V3 × V3 :=
  let tw := (mount - washout) * Real.pi / 180
  let di := dihedral * Real.pi / 180
  let normal : V3 := ⟨-Real.sin tw, -Real.sin di * Real.cos tw, -Real.cos di * Real.cos tw⟩
  let axial : V3 := ⟨-Real.cos tw, Real.sin di * Real.sin tw, Real.cos di * Real.sin tw⟩
  match side with
  | .left => (⟨axial.x, axial.y * -1, axial.z⟩, ⟨normal.x, normal.y * -1, normal.z⟩)
  | .right => (axial, normal)

/-- `WingSegment.get_control_surface_span` (`geometry.py:969-976`): (start, end) from left to right -/
noncomputable def Seg.csSpan (s : Seg) : ℝ × ℝ :=
  match s.side with
  | .left => (1 - s.cs.spanTip, 1 - s.cs.spanRoot)
  | .right => (s.cs.spanRoot, s.cs.spanTip)

/-- `WingSegment.get_control_surface_chord` (`geometry.py:990-995`): (left, right) -/
def Seg.csChord (s : Seg) : ℝ × ℝ := leftRight s.side s.cs.chordRoot s.cs.chordTip

/-- `cf_c` at a station (`llgrid.py:371-372`) -/
noncomputable def Seg.flapChord (s : Seg) (x : ℝ) : ℝ :=
  (x - s.csSpan.1) * ((s.csChord.2 - s.csChord.1) / (s.csSpan.2 - s.csSpan.1)) + s.csChord.1

/-- `eps_f` for a flap chord fraction (`llgrid.py:387-388`) -/
noncomputable def epsF (cf : ℝ) : ℝ :=
  1 - (Real.arccos (2 * cf - 1) - Real.sin (Real.arccos (2 * cf - 1))) / Real.pi

/-- `eta_h` for a flap chord fraction (`llgrid.py:391-394`) -/
noncomputable def etaH (isSealed : Bool) (cf : ℝ) : ℝ :=
  let e := 3.9598 * Real.arctan ((cf + 0.006527) * 89.2574 + 4.898015) - 5.18786
  if isSealed then e else e * 0.8

/-- `cm_d` for a flap chord fraction (`llgrid.py:396`) -/
noncomputable def cmD (cf : ℝ) : ℝ :=
  (Real.sin (2 * Real.arccos (2 * cf - 1)) - 2 * Real.sin (Real.arccos (2 * cf - 1))) / 4

/-- the test of `llgrid.py:384` -/
def Seg.covers (s : Seg) (x : ℝ) : Prop := x > s.csSpan.1 ∧ x < s.csSpan.2

open Classical in
/-- Section `i` of a segment with given tip positions: everything `_update_data` writes for it
(`llgrid.py:101-111`) except `int_chord2`: `_set_name` (114-117), `_calc_control_points` (119-140), `_calc_chord` (183-203) and
`_interp_accross_segment` (205-218), `_calc_area` (220-233), `_calc_washout` (235-250), `_calc_sweep`, `_calc_dihedral`,
`_calc_mount_angle` (252-259), `_calc_unit_vectors` (261-286), `_calc_coefficients` (288-354), `_calc_control_surfaces` (357-400). -/
noncomputable def segSection (cosine : Bool) (s : Seg) (l r : V3) (i : ℕ) : GridSec :=
  let sp := sCp cosine s.n i
  let s1 := sC1 cosine s.n i
  let s2 := sC2 cosine s.n i
  let ch := leftRight s.side s.rootChord s.tipChord
  let wo := leftRight s.side 0 s.washout
  let af := leftRight s.side s.root s.tip
  let c1 := lerp s1 ch.1 ch.2
  let c2 := lerp s2 ch.1 ch.2
  let p1 := segPoint l r s1
  let p2 := segPoint l r s2
  let washout := lerp sp wo.1 wo.2
  let fr := frame s.side s.mount washout s.dihedral
  let cf := s.flapChord sp
  let mix := s.cs.mixFor s.side
  { name := s.name
    sp := sp, s1 := s1, s2 := s2
    rcp := segPoint l r sp, r1 := p1, r2 := p2
    chord := lerp sp ch.1 ch.2, c1 := c1, c2 := c2
    area := Real.cos (s.sweep * Real.pi / 180) * nrm (p2 - p1) * (c1 + c2) / 2
    washout := washout, sweep := s.sweep, dihedral := s.dihedral, mount := s.mount, twist := s.mount - washout
    ua := fr.1, un := fr.2, us := cross fr.1 fr.2
    cla := lerp sp af.1.cla af.2.cla
    al0 := lerp sp af.1.al0 af.2.al0
    cma := lerp sp af.1.cma af.2.cma
    cml0 := lerp sp af.1.cml0 af.2.cml0
    cd0 := lerp sp af.1.cd0 af.2.cd0
    cd1 := lerp sp af.1.cd1 af.2.cd1
    cd2 := lerp sp af.1.cd2 af.2.cd2
    clMax := lerp sp af.1.clMax af.2.clMax
    left := af.1.coef, right := af.2.coef
    flapEff := if s.covers sp then etaH s.cs.sealed cf * epsF cf else 0
    cmd := if s.covers sp then cmD cf else 0
    mixA := if s.covers sp then mix.1 else 0
    mixE := if s.covers sp then mix.2.1 else 0
    mixR := if s.covers sp then mix.2.2.1 else 0
    mixF := if s.covers sp then mix.2.2.2 else 0
    ic2 := 0 }

/-- `WingSegment.get_position` with enough recursion depth for every acyclic parent chain (`geometry.py:830-885`) -/
noncomputable def Plane.segPosition (p : Plane) (s : Seg) (t : TipAt) : Except PyErr V3 := segPos p (p.heap.length + 1) s t

open Classical in
/-- The part of `_update_data` for one segment (`llgrid.py:101-111`): the entries for its slice.
`ZeroDivisionError` for `np.pi/0` (146) and for a control surface of zero width (371); `.nonfinite` when the tips
coincide (179) or when `arccos` is applied to a flap chord fraction outside `[0, 1]` at a covered section (387). -/
noncomputable def segData (p : Plane) (cosine : Bool) (s : Seg) : Except PyErr (List GridSec) :=
  if cosine = true ∧ s.n = 0 then .error .zeroDiv
  else match p.segPosition s .leftTip with
  | .error e => .error e
  | .ok l => match p.segPosition s .rightTip with
    | .error e => .error e
    | .ok r =>
      if s.csSpan.2 - s.csSpan.1 = 0 then .error .zeroDiv
      else if nrm (r - l) = 0 then .error .nonfinite
      else if ∃ i < s.n, s.covers (sCp cosine s.n i) ∧ ¬ (0 ≤ s.flapChord (sCp cosine s.n i) ∧
          s.flapChord (sCp cosine s.n i) ≤ 1) then .error .nonfinite
      else .ok ((List.range s.n).map (segSection cosine s l r))

/-- `a[i:i+n] = v` (numpy slice assignment; `ValueError` for a shape mismatch) (for example `llgrid.py:117`, `135-140`) -/
def setSlice {α : Type*} (a : List α) (i n : ℕ) (v : List α) : Except PyErr (List α) :=
  if i + n ≤ a.length ∧ v.length = n then .ok (a.take i ++ v ++ a.drop (i + n)) else .error .value

/-- The mutable state of `_update_data`: running index, slices, arrays, reference area. (`llgrid.py:92-99`, `231-232`) -/
structure GridState where
  index : ℕ
  /-- `_segment_slices`, as (start, stop) -/
  slices : List (ℕ × ℕ)
  data : List GridSec
  /-- `_reference_area` -/
  refArea : ℝ

/-- one iteration of the loop of `_update_data` (`llgrid.py:95-111`) -/
noncomputable def gridStep (p : Plane) (cosine : Bool) (st : GridState) (s : Seg) : Except PyErr GridState :=
  match segData p cosine s with
  | .error e => .error e
  | .ok v => match setSlice st.data st.index s.n v with
    | .error e => .error e
    | .ok data' => .ok
      { index := st.index + s.n
        slices := st.slices ++ [(st.index, st.index + s.n)]
        data := data'
        refArea := if s.isMain then st.refArea + (v.map (·.area)).sum else st.refArea }

/-- `_calc_integral_chord2` for one section (`llgrid.py:402-413`) -/
noncomputable def GridSec.withIc2 (g : GridSec) : GridSec :=
  { g with ic2 := |dot g.us (g.r2 - g.r1)| * (g.c2 * g.c2 + g.c1 * g.c2 + g.c1 * g.c1) / 3 }

/-- What `LLGrid` holds after construction. (`llgrid.py:30-88`) -/
structure Grid where
  data : List GridSec
  slices : List (ℕ × ℕ)
  refArea : ℝ

/-- `LLGrid.__init__` and `_update_data` (`llgrid.py:30-112`). -/
noncomputable def mkGrid (p : Plane) (cosine : Bool) : Except PyErr Grid :=
  match p.segments.foldlM (gridStep p cosine) ⟨0, [], List.replicate p.numSections GridSec.blank, 0⟩ with
  | .error e => .error e
  | .ok st => .ok ⟨st.data.map GridSec.withIc2, st.slices, st.refArea⟩

/-- The geometry part of an `LLModel` built on a grid (`llmodel.py:87-88`): sections indexed by `Fin N`. -/
def Grid.geom (g : Grid) (cg : V3) : LLGeom (Fin g.data.length) := ⟨cg, fun i => (g.data.get i).toSection⟩

end Verif
