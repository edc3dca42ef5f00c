import Verif.Model.Grid
import Verif.Model.PropGeom

/-!
# Model of the STL output (`machup/outputstl.py`)

Simplifications: the three vertices of a facet are written in one step; `float()` on one or two characters of an airfoil name
is the parameter `flt` (`none`: `ValueError`).
-/

namespace Verif
open V3

/-- a triangle of the mesh: `plane_stl.vectors[k]` (`outputstl.py:23`, `85-90`) -/
structure Facet where
  a : V3
  b : V3
  c : V3

/-- a quaternion `[e0, ex, ey, ez]` (`outputstl.py:246-285`) -/
@[ext]
structure Quat where
  w : ℝ
  x : ℝ
  y : ℝ
  z : ℝ

/-- `Euler2Quat` (`outputstl.py:246-260`) -/
noncomputable def euler2Quat (phi theta psi : ℝ) : Quat :=
  let cp := Real.cos (phi / 2)
  let ct := Real.cos (theta / 2)
  let cg := Real.cos (psi / 2)
  let sp := Real.sin (phi / 2)
  let st := Real.sin (theta / 2)
  let sg := Real.sin (psi / 2)
  ⟨cp * ct * cg + sp * st * sg, sp * ct * cg - cp * st * sg, cp * st * cg + sp * ct * sg, cp * ct * sg - sp * st * cg⟩

/-- `Body2Fixed` (`outputstl.py:262-276`) -/
def body2Fixed (v : V3) (e : Quat) : V3 :=
  let To := v.x * e.x + v.y * e.y + v.z * e.z
  let Tx := v.x * e.w - v.y * e.z + v.z * e.y
  let Ty := v.x * e.z + v.y * e.w - v.z * e.x
  let Tz := -v.x * e.y + v.y * e.x + v.z * e.w
  ⟨e.w * Tx + e.x * To + e.y * Tz - e.z * Ty, e.w * Ty - e.x * Tz + e.y * To + e.z * Tx,
    e.w * Tz + e.x * Ty - e.y * Tx + e.z * To⟩

/-- `QuatMult` (`outputstl.py:278-284`) -/
def quatMult (A B : Quat) : Quat :=
  ⟨A.w * B.w - A.x * B.x - A.y * B.y - A.z * B.z, A.w * B.x + A.x * B.w + A.y * B.z - A.z * B.y,
    A.w * B.y - A.x * B.z + A.y * B.w + A.z * B.x, A.w * B.z + A.x * B.y - A.y * B.x + A.z * B.w⟩

/-- the number of points of an airfoil outline (`outputstl.py:12`) -/
def nOut : ℕ := 50

/-- the three numbers of a 4-digit name (`outputstl.py:216-221`) -/
structure Naca where
  m : ℝ
  p : ℝ
  t : ℝ

/-- `float(airfoil[0])/100`, `float(airfoil[1])/10`, `float(airfoil[2:4])/100` (`outputstl.py:216-218`) -/
noncomputable def parseNaca (flt : List Char → Option ℝ) (name : List Char) : Except PyErr Naca :=
  match name with
  | a :: b :: r =>
    match flt [a], flt [b], flt (r.take 2) with
    | some m, some p, some t => .ok ⟨m / 100, p / 10, t / 100⟩
    | _, _, _ => .error .value
  | _ => .error .index

/-- `theta[j]` (`outputstl.py:224`) -/
noncomputable def outTheta (j : ℕ) : ℝ := -Real.pi + j * ((Real.pi - -Real.pi) / ((nOut : ℝ) - 1))

/-- `Yt` (`outputstl.py:226`) -/
noncomputable def nacaThickness (t x : ℝ) : ℝ :=
  5 * t * (0.2969 * Real.sqrt x - 0.1260 * x - 0.3516 * x ^ 2 + 0.2843 * x ^ 3 - 0.1015 * x ^ 4)

open Classical in
/-- `Yc` (`outputstl.py:227-231`) -/
noncomputable def nacaCamber (k : Naca) (x : ℝ) : ℝ :=
  if k.m = 0 ∨ k.p = 0 then 0
  else if x < k.p then k.m / (k.p * k.p) * (2 * k.p * x - x * x)
  else k.m / (1 - k.p) ^ 2 * (1 - 2 * k.p + 2 * k.p * x - x * x)

open Classical in
/-- `Yc_x` (`outputstl.py:227-232`) -/
noncomputable def nacaSlope (k : Naca) (x : ℝ) : ℝ :=
  if k.m = 0 ∨ k.p = 0 then 0
  else if x < k.p then 2 * k.m / (k.p * k.p) * (k.p - x)
  else k.m / (1 - k.p) ^ 2 * (k.p - x)

/-- `np.sign` (`outputstl.py:215-239`) -/
noncomputable def signum (x : ℝ) : ℝ := if 0 < x then 1 else if x < 0 then -1 else 0

/-- `(Xul, Yul)` at an angle `theta` (`outputstl.py:224-235`) -/
noncomputable def nacaPoint (k : Naca) (theta : ℝ) : ℝ × ℝ :=
  let x := 0.5 * (1 - Real.cos theta)
  let s := nacaSlope k x
  (x - nacaThickness k.t x * Real.sin (Real.arctan s) * signum theta,
    nacaCamber k x + nacaThickness k.t x * Real.cos (Real.arctan s) * signum theta)

/-- `(X, Z)` of point `j` (`outputstl.py:237-239`) -/
noncomputable def nacaXZ (k : Naca) (j : ℕ) : ℝ × ℝ :=
  let P := nacaPoint k (outTheta j)
  (-P.1 + 0.25, -P.2)

open Classical in
/-- `plotNACA` (`outputstl.py:215-239`) -/
noncomputable def plotNACA (flt : List Char → Option ℝ) (name : List Char) : Except PyErr (ℕ → ℝ × ℝ) := do
  let k ← parseNaca flt name
  if k.m ≠ 0 ∧ k.p = 1 then .error .nonfinite else return nacaXZ k

/-- the digits chosen for an airfoil name; `prev` is what the variable held before (`outputstl.py:46-54`): `none` while it has
not been assigned -/
def nacaDigits (name : String) (prev : Option (List Char)) : Option (List Char) :=
  let n := name.toList
  if n.take 4 = ['N', 'A', 'C', 'A'] ∨ n.take 4 = ['n', 'a', 'c', 'a'] then
    if n.length = 8 then some (n.drop 4) else prev
  else some ['2', '4', '1', '2']

/-- reading a local variable (for example `left_NACA`, `outputstl.py:56`) -/
def readVar {α : Type} : Option α → Except PyErr α
  | some a => .ok a
  | none => .error .unbound

/-- the triangles of the strip between outline rows `i` and `i + 1` at point `j`, in the order of `outputstl.py:85-90` -/
def panel (P : ℕ → ℕ → V3) (i j : ℕ) : List Facet :=
  [⟨P i j, P i (j + 1), P (i + 1) j⟩, ⟨P i (j + 1), P (i + 1) (j + 1), P (i + 1) j⟩]

/-- the triangles in the order of `outputstl.py:199-204`, for propellers turning the other way -/
def panelRev (P : ℕ → ℕ → V3) (i j : ℕ) : List Facet :=
  [⟨P i j, P (i + 1) j, P i (j + 1)⟩, ⟨P i (j + 1), P (i + 1) j, P (i + 1) (j + 1)⟩]

/-- `plane_stl.vectors[k] = f`: a negative index counts from the end (`outputstl.py:85-90`, `192-204`) -/
def writeFacet (a : List Facet) (k : ℤ) (f : Facet) : Except PyErr (List Facet) :=
  if 0 ≤ k ∧ k < a.length then .ok (a.set k.toNat f)
  else if k < 0 ∧ 0 ≤ k + a.length then .ok (a.set (k + a.length).toNat f)
  else .error .index

/-- writes to consecutive positions (`outputstl.py:85-90`, `192-204`) -/
def writePanel : List Facet → ℤ → List Facet → Except PyErr (List Facet)
  | a, _, [] => .ok a
  | a, k, f :: t => do
    let a ← writeFacet a k f
    writePanel a (k + 1) t

/-- the loops over rows and points that fill the mesh for one surface of `rows` outlines (`outputstl.py:81-90`, `187-204`),
starting at position `base` -/
def writeSurface (tri : (ℕ → ℕ → V3) → ℕ → ℕ → List Facet) (P : ℕ → ℕ → V3) (rows : ℕ) (base : ℤ) (a : List Facet) :
    Except PyErr (List Facet) :=
  (List.range (rows - 1)).foldlM (fun a (i : ℕ) =>
    (List.range (nOut - 1)).foldlM (fun a (j : ℕ) =>
      writePanel a (base + 2 * ((nOut : ℤ) - 1) * (i : ℤ) + 2 * (j : ℤ)) (tri P i j)) a) a

/-- `linear_inter` (`outputstl.py:241-244`) at one point -/
def linInter (left right s : ℝ) : ℝ := left + (right - left) * s

/-- `e1` (`outputstl.py:68-71`), for a dihedral in degrees -/
noncomputable def dihedralQuat : Side → ℝ → Quat
  | .left, d => euler2Quat (rad d) 0 0
  | .right, d => euler2Quat (rad (-d)) 0 0

/-- the point `j` of section `g` of a segment (`outputstl.py:58-79`) -/
noncomputable def wingPoint (side : Side) (L R : ℕ → ℝ × ℝ) (g : GridSec) (j : ℕ) : V3 :=
  let x := linInter (L j).1 (R j).1 g.sp * g.chord
  let z := linInter (L j).2 (R j).2 g.sp * g.chord
  let e1 := dihedralQuat side g.dihedral
  let e2 := euler2Quat 0 (rad g.twist) 0
  body2Fixed ⟨x, 0, z⟩ (quatMult e1 e2) + g.rcp

/-- the local variables of the loop over the segments (`outputstl.py:36-93`) -/
structure StlVars where
  left : Option (List Char) := none
  right : Option (List Char) := none
  /-- `segment_index` -/
  index : ℤ := 0
  mesh : List Facet

/-- one iteration of the loop over the segments (`outputstl.py:36-92`); `sl` is the slice of the segment -/
noncomputable def stlSegment (flt : List Char → Option ℝ) (g : Grid) (v : StlVars) (s : Seg × (ℕ × ℕ)) : Except PyErr StlVars := do
  let (seg, sl) := s
  let af := leftRight seg.side seg.root seg.tip
  let left := nacaDigits af.1.name v.left
  let right := nacaDigits af.2.name v.right
  let L ← readVar left >>= plotNACA flt
  let R ← readVar right >>= plotNACA flt
  let P (i j : ℕ) : V3 := wingPoint seg.side L R (g.data.getD (sl.1 + i) GridSec.blank) j
  let mesh ← writeSurface panel P seg.n v.index v.mesh
  return { left, right, index := v.index + ((seg.n : ℤ) - 1) * ((nOut : ℤ) - 1) * 2, mesh }

/-- the surface point `j` of node `i` of the blade before it is placed on the axis (`outputstl.py:156-171`); `X`, `Z` is the
outline at that node -/
noncomputable def bladePoint {ι : Type} (M : PropM ι) (i : ℕ) (X Z : ℝ) : V3 :=
  let s := M.stn i
  let v := body2Fixed ⟨-(Z * s.cb), X * s.cb * M.rot, 0⟩ (euler2Quat 0 0 (-M.rot * (s.beta - s.af.aL0)))
  ⟨v.x, v.y, -s.r⟩

/-- the outlines of the airfoils of a propeller (`outputstl.py:104-117`) -/
noncomputable def propOutlines (flt : List Char → Option ℝ) : List Airfoil → Option (List Char) →
    Except PyErr (List (ℕ → ℝ × ℝ) × Option (List Char))
  | [], v => .ok ([], v)
  | af :: t, v => do
    let v := nacaDigits af.name v
    let O ← readVar v >>= plotNACA flt
    let (l, v) ← propOutlines flt t v
    return (O :: l, v)

/-- the local variables of the loop over the propellers (`outputstl.py:96-210`) -/
structure StlPropVars where
  naca : Option (List Char) := none
  index : ℤ
  mesh : List Facet

/-- `Body2Fixed` with `e_blade`, once per blade (`outputstl.py:206-208`) -/
noncomputable def spin (e : Quat) : ℕ → V3 → V3
  | 0, v => v
  | k + 1, v => body2Fixed (spin e k v) e

open Classical in
/-- `_airfoil_span_list` (`propmodel.py:82-84`, `95-110`, `162`): airfoils with their positions; the position of a single airfoil is not used -/
noncomputable def spanList (q : PropGeom) : Except PyErr (List (ℝ × Airfoil)) :=
  match q.airfoils with
  | [] => .ok [(0, Airfoil.default "NACA2412")]
  | [(_, a)] => .ok [(0, a)]
  | l => do
    let pos ← l.mapM fun kv => do
      let x ← spanFrac (zetaAt q 0) (zetaAt q (q.nodes - 1)) kv.2.spanPosition
      return (x, kv.2)
    let s := pos.insertionSort fun a b => a.1 ≤ b.1
    if (s.map Prod.fst).Nodup then return s else .error .type

/-- the outline at a station (`outputstl.py:122-131`): that of the only airfoil, or interpolated -/
noncomputable def outlineAt (l : List (ℝ × (ℕ → ℝ × ℝ))) (zeta : ℝ) (j : ℕ) : ℝ × ℝ :=
  match l with
  | [(_, O)] => O j
  | l => (interpFill (l.map fun p => (p.1, (p.2 j).1)) zeta, interpFill (l.map fun p => (p.1, (p.2 j).2)) zeta)

open Classical in
/-- one iteration of the loop over the propellers (`outputstl.py:96-210`) -/
noncomputable def stlProp {ι : Type} (flt : List Char → Option ℝ) (v : StlPropVars) (M : PropM ι) :
    Except PyErr StlPropVars := do
  let afs ← spanList M.geom
  let (outs, naca) ← propOutlines flt (afs.map Prod.snd) v.naca
  let O := outlineAt ((afs.map Prod.fst).zip outs)
  let P (i j : ℕ) : V3 := bladePoint M i (O (M.stn i).zeta j).1 (O (M.stn i).zeta j).2
  let k := M.geom.blades
  if k = 0 then .error .zeroDiv else
  let eBlade := euler2Quat (2 * Real.pi / k) 0 0
  let eProp := euler2Quat 0 (rad M.geom.orientation.1) (rad M.geom.orientation.2)
  let mesh ← (List.range k).foldlM (fun mesh b =>
    writeSurface (if M.rot = 1 then panel else panelRev)
      (fun i j => body2Fixed (spin eBlade b (P i j)) eProp + M.geom.position) M.nodes
      (v.index + ((M.nodes : ℤ) - 1) * ((nOut : ℤ) - 1) * 2 * b) mesh) v.mesh
  return { naca, index := v.index + k * ((M.nodes : ℤ) - 1) * ((nOut : ℤ) - 1) * 2, mesh }

/-- `num_faces` (`outputstl.py:11-21`) -/
def numFaces {ι : Type} (wings : Option (List Seg × Grid)) (props : List (PropM ι)) : ℤ :=
  (match wings with
    | some (segs, g) => ((g.data.length : ℤ) - segs.length) * ((nOut : ℤ) - 1) * 2
    | none => 0) +
  (props.map fun M => (M.geom.blades : ℤ) * ((M.nodes : ℤ) - 1) * ((nOut : ℤ) - 1) * 2).sum

/-- `create_from_grid` (`outputstl.py:9-212`): the triangles saved.  `wings`: the segments of the plane (`get_wingsegments()`)
and its grid, if `llgrid` is given. -/
noncomputable def createStl {ι : Type} (flt : List Char → Option ℝ) (wings : Option (List Seg × Grid))
    (props : List (PropM ι)) : Except PyErr (List Facet) := do
  let n := numFaces wings props
  if n < 0 then .error .value else
  let mesh := List.replicate n.toNat (⟨0, 0, 0⟩ : Facet)
  let (mesh, index) ← match wings with
    | some (segs, g) => do
      let v ← (segs.zip g.slices).foldlM (stlSegment flt g) { mesh }
      pure (v.mesh, v.index)
    | none => pure (mesh, 0)
  let v ← props.foldlM (stlProp flt) { index, mesh }
  return v.mesh

end Verif
