import Verif.Spec.Geometry

/-!
# Specification vocabulary: a wing described in two pieces

The wing added by one call is described by two calls instead: an inner piece and an outer piece connected to its tip.
-/

namespace Verif
open V3

/-- chord of the wing described by `d` at the fraction `x` of its span, counted from the root -/
noncomputable def WingDims.chordAt (d : WingDims) (x : ℝ) : ℝ :=
  d.rootChord.getD 1 + x * (d.tipChord.getD (d.rootChord.getD 1) - d.rootChord.getD 1)

/-- The inner piece: the first `x` of the span, with `k` sections. -/
noncomputable def WingDims.inner (d : WingDims) (x : ℝ) (k : ℕ) : WingDims :=
  { d with semispan := some (x * d.semispan.getD 4), tipChord := some (d.chordAt x), washout := some (x * d.washout.getD 0)
           grid := some k }

/-- The outer piece: the rest of the span, with `k` sections.  It starts at the tip of the inner piece, with the chord and the
incidence that piece ends with. -/
noncomputable def WingDims.outer (d : WingDims) (x : ℝ) (k : ℕ) : WingDims :=
  { d with position := none, yoffset := none
           semispan := some ((1 - x) * d.semispan.getD 4), rootChord := some (d.chordAt x)
           tipChord := some (d.chordAt 1)
           mountAngle := some (d.mountAngle.getD 0 - x * d.washout.getD 0), washout := some ((1 - x) * d.washout.getD 0)
           grid := some k }

/-- The same control surface, measured along a piece of the wing that begins at the fraction `a` of the span and has the fraction `b`
of its length. -/
noncomputable def CtrlSurfProps.onPiece (q : CtrlSurfProps) (a b : ℝ) : CtrlSurfProps :=
  { q with percentSpan := q.percentSpan.map fun s => ((s.1 - a) / b, (s.2 - a) / b) }

/-- The calls to make in place of `op` when wing object `N`, named `w`, has been added in two pieces, objects `N` and `N + 1`, the outer
one named `w'`: what is connected to the wing is connected to its outer piece, its airfoil is given to both pieces, and so is its control
surface; later objects have the next number. -/
noncomputable def PlaneOp.cut (N : ℕ) (w w' : String) (x : ℝ) : PlaneOp → List PlaneOp
  | .addWing nm parent location side d => [.addWing nm (if parent = some w then some w' else parent) location side d]
  | .airfoil id nm e q =>
    if id = N then [.airfoil N nm e q, .airfoil (N + 1) nm e q] else [.airfoil (if id < N then id else id + 1) nm e q]
  | .controlSurface id q =>
    if id = N then [.controlSurface N (q.onPiece 0 x), .controlSurface (N + 1) (q.onPiece x (1 - x))]
    else [.controlSurface (if id < N then id else id + 1) q]
  | op => [op]

/-- The later calls leave the names of the two pieces alone, and give the wing one airfoil at root and tip. -/
structure CutCalls (N : ℕ) (w w' : String) (after : List PlaneOp) : Prop where
  names : ∀ nm parent location side d, .addWing nm parent location side d ∈ after → nm ≠ w ∧ nm ≠ w' ∧ parent ≠ some w'
  airfoils : ∀ nm e q, .airfoil N nm e q ∈ after → e = "both"

/-- The two sections are the same piece of wing: same place, shape, orientation, airfoil, and response to the controls.  Where the
airfoil does not change along the wing, the fraction of the span of the segment at which the section lies does not matter. -/
structure SamePanel (s s' : Section) : Prop where
  rcp : s'.rcp = s.rcp
  r1 : s'.r1 = s.r1
  r2 : s'.r2 = s.r2
  chord : s'.chord = s.chord
  twist : s'.twist = s.twist
  dihedral : s'.dihedral = s.dihedral
  sweep : s'.sweep = s.sweep
  area : s'.area = s.area
  cla : s'.cla = s.cla
  al0 : s'.al0 = s.al0
  clMax : s'.clMax = s.clMax
  left : s'.left = s.left
  right : s'.right = s.right
  station : s'.sp = s.sp ∨ s.left = s.right
  ua : s'.ua = s.ua
  un : s'.un = s.un
  us : s'.us = s.us
  flapEff : s'.flapEff = s.flapEff
  cmd : s'.cmd = s.cmd
  ic2 : s'.ic2 = s.ic2
  mixA : s'.mixA = s.mixA
  mixE : s'.mixE = s.mixE
  mixR : s'.mixR = s.mixR
  mixF : s'.mixF = s.mixF

end Verif
