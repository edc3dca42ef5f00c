import Verif.Spec.Geometry

/-!
# Specification vocabulary: what the calls made on a wing say
-/

namespace Verif
open V3

/-- The number of wing objects a build history creates; also the identity of the next one. -/
def wingsCreated (ops : List PlaneOp) : ℕ := (addCalls ops).length

/-- After the calls `ops`, `name` stands for wing object `c`: the one of the last accepted `add_wing` call with that
name. -/
def Names (ops : List PlaneOp) (name : String) (c : ℕ) : Prop :=
  ∃ pre parent location side d post, ops = pre ++ .addWing name parent location side d :: post ∧ ValidSide side ∧
    c = wingsCreated pre ∧ ∀ parent' location' side' d', .addWing name parent' location' side' d' ∈ post → ¬ ValidSide side'

/-- The call that created wing object `b` connected it to the wing then known by the given name: object `c`.  (The new wing
is already known by its own name at that point.) -/
def ConnectedBy (ops : List PlaneOp) (b c : ℕ) : Prop :=
  ∃ pre name parent location side d post, ops = pre ++ .addWing name (some parent) location side d :: post ∧
    ValidSide side ∧ parent ≠ "" ∧ b = wingsCreated pre ∧
    Names (pre ++ [.addWing name (some parent) location side d]) parent c

/-- Wing object `c` was created by a call that asks for both sides and gives no lateral displacement. -/
def CreatedTwoSided (ops : List PlaneOp) (c : ℕ) : Prop :=
  ∃ pre name parent location d post, ops = pre ++ .addWing name parent location "both" d :: post ∧
    c = wingsCreated pre ∧ (d.position.getD 0).y = 0

/-- The wings of the aircraft, and the wings these are connected to, are two-sided and centred. -/
def SymmetricCalls (ops : List PlaneOp) : Prop :=
  ∀ name c c', Names ops name c → Relation.ReflTransGen (ConnectedBy ops) c c' → CreatedTwoSided ops c'

/-- Every accepted `add_wing` call that names a wing to connect to names one that is known at that point. -/
def ParentsAdded (ops : List PlaneOp) : Prop :=
  ∀ pre name parent location side d post, ops = pre ++ .addWing name (some parent) location side d :: post →
    ValidSide side → parent ≠ "" → ∃ c, Names (pre ++ [.addWing name (some parent) location side d]) parent c

/-- All eight section properties are given, or no keyword at all. -/
def AirfoilProps.Complete (q : AirfoilProps) : Prop :=
  (q.al0.isSome ∧ q.cla.isSome ∧ q.clMax.isSome ∧ q.cml0.isSome ∧ q.cma.isSome ∧ q.cd0.isSome ∧ q.cd1.isSome ∧
    q.cd2.isSome) ∨
  (q.spanPosition = none ∧ q.al0 = none ∧ q.cla = none ∧ q.clMax = none ∧ q.cml0 = none ∧ q.cma = none ∧
    q.cd0 = none ∧ q.cd1 = none ∧ q.cd2 = none ∧ q.other = false)

/-- `op` is a successful call of `airfoil` on the wing `id` that concerns the end `e` (`"root"` or `"tip"`). -/
def SetsAirfoil (id : ℕ) (e : String) (op : PlaneOp) : Prop :=
  ∃ name e' props, op = .airfoil id name e' props ∧ (e' = e ∨ e' = "both") ∧ props.Complete

/-- The airfoil has the properties given; those of the NACA 2412 if none were given. -/
structure Airfoil.Says (a : Airfoil) (name : String) (q : AirfoilProps) : Prop where
  name : a.name = name
  al0 : a.al0 = q.al0.getD (-0.0369)
  cla : a.cla = q.cla.getD 6.2832
  clMax : a.clMax = q.clMax.getD 1.4
  cml0 : a.cml0 = q.cml0.getD (-0.0527)
  cma : a.cma = q.cma.getD (-0.08)
  cd0 : a.cd0 = q.cd0.getD 0.0055
  cd1 : a.cd1 = q.cd1.getD (-0.0045)
  cd2 : a.cd2 = q.cd2.getD 0.01

/-- Span, chord and mix are given, or no keyword at all. -/
def CtrlSurfProps.Complete (q : CtrlSurfProps) : Prop :=
  (q.percentSpan.isSome ∧ q.percentChord.isSome ∧ q.mix.isSome) ∨
  (q.percentSpan = none ∧ q.percentChord = none ∧ q.mix = none ∧ q.sealed = none ∧ q.isSealed = none ∧ q.other = false)

/-- `op` is a successful call of `control_surface` on the wing `id`. -/
def SetsControl (id : ℕ) (op : PlaneOp) : Prop := ∃ props, op = .controlSurface id props ∧ props.Complete

/-- chord fraction at the root end of the surface -/
def PctChord.atRoot : PctChord → ℝ
  | .pair a _ => a
  | .single c => c

/-- chord fraction at the tip end of the surface -/
def PctChord.atTip : PctChord → ℝ
  | .pair _ b => b
  | .single c => c

/-- The control surface is the one described; without keywords it has no chord and is not mixed with any control. -/
structure CtrlSurf.Says (c : CtrlSurf) (q : CtrlSurfProps) : Prop where
  spanRoot : c.spanRoot = (q.percentSpan.map (·.1)).getD 0
  spanTip : c.spanTip = (q.percentSpan.map (·.2)).getD 1
  chordRoot : c.chordRoot = (q.percentChord.map PctChord.atRoot).getD 0
  chordTip : c.chordTip = (q.percentChord.map PctChord.atTip).getD 0
  sealed : c.sealed = q.sealed.getD true
  aileron : c.aileron = q.mix.bind (·.aileron)
  elevator : c.elevator = q.mix.bind (·.elevator)
  rudder : c.rudder = q.mix.bind (·.rudder)
  flap : c.flap = q.mix.bind (·.flap)

/-- A segment of a wing added with the keywords `d`.  Unstated keywords: a straight, unswept, untwisted main wing of
semispan 4 and root chord 1, without taper, 40 sections. -/
structure Seg.Says (s : Seg) (d : WingDims) : Prop where
  isMain : s.isMain = d.isMain.getD true
  dpos : s.dpos = d.position.getD 0
  yoffset : s.yoffset = d.yoffset.getD 0
  span : s.span = d.semispan.getD 4
  rootChord : s.rootChord = d.rootChord.getD 1
  tipChord : s.tipChord = d.tipChord.getD (d.rootChord.getD 1)
  sweep : s.sweep = d.sweep.getD 0
  dihedral : s.dihedral = d.dihedral.getD 0
  mount : s.mount = d.mountAngle.getD 0
  washout : s.washout = d.washout.getD 0
  n : s.n = d.grid.getD 40

/-- Calls that describe an aircraft which can be discretised.  Wings are connected only at the tip, and to other wings that were added
before with the side needed; no sweep of 90 degrees (or an odd multiple); no empty span; at least one section; control
surfaces have different ends and chord fractions between 0 and 1. -/
structure WellFormedCalls (ops : List PlaneOp) : Prop where
  attach : ∀ pre name parent location side d post, ops = pre ++ .addWing name (some parent) location side d :: post →
    ValidSide side → parent ≠ "" → location = "tip" ∧ parent ≠ name ∧
      ∃ pre' parent' location' side' d' post', pre = pre' ++ .addWing parent parent' location' side' d' :: post' ∧
        ValidSide side' ∧ (side' = "both" ∨ side' = side) ∧ ∀ a b e f, .addWing parent a b e f ∈ post' → ¬ ValidSide e
  sweep : ∀ name parent location side d, .addWing name parent location side d ∈ ops → ValidSide side →
    Real.cos (d.sweep.getD 0 * Real.pi / 180) ≠ 0
  span : ∀ name parent location side d, .addWing name parent location side d ∈ ops → ValidSide side → d.semispan.getD 4 ≠ 0
  sections : ∀ name parent location side d, .addWing name parent location side d ∈ ops → ValidSide side → 0 < d.grid.getD 40
  control : ∀ id props, .controlSurface id props ∈ ops → props.Complete →
    (∀ a b, props.percentSpan = some (a, b) → a ≠ b) ∧
    ∀ q, props.percentChord = some q → 0 ≤ q.atRoot ∧ q.atRoot ≤ 1 ∧ 0 ≤ q.atTip ∧ q.atTip ≤ 1

end Verif
