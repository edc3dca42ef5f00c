import Verif.Model.PropGeom

/-!
# Specification vocabulary: blades as described

Only the description of a propeller (`PropGeom`) is used, none of the formulas of the propeller model.
-/

namespace Verif

/-- `v` is the value at `x` of the curve through the points `l`, in whatever order they are listed: straight between
neighbouring points, constant beyond the first and the last. -/
structure Interpolates (l : List (ℝ × ℝ)) (x v : ℝ) : Prop where
  below : ∀ a ∈ l, (∀ b ∈ l, a.1 ≤ b.1) → x ≤ a.1 → v = a.2
  above : ∀ a ∈ l, (∀ b ∈ l, b.1 ≤ a.1) → a.1 ≤ x → v = a.2
  between : ∀ a ∈ l, ∀ b ∈ l, a.1 < b.1 → (∀ c ∈ l, c.1 ≤ a.1 ∨ b.1 ≤ c.1) → a.1 ≤ x → x ≤ b.1 →
    v = a.2 + (x - a.1) / (b.1 - a.1) * (b.2 - a.2)

/-- The stations of the blade, as fractions of the radius: evenly spaced from the hub to 99.9 % of the radius. -/
noncomputable def stationAt (q : PropGeom) (i : ℕ) : ℝ :=
  (1 - i / ((q.nodes : ℝ) - 1)) * (q.hubDiameter / q.diameter) + i / ((q.nodes : ℝ) - 1) * 0.999

/-- where on the blade an airfoil belongs: the first station, the last station, or the given fraction of the radius -/
def BelongsAt (q : PropGeom) (a : Airfoil) (x : ℝ) : Prop :=
  (∃ s, a.spanPosition = some (.name s) ∧ s ∈ ["root", "Root", "ROOT"] ∧ x = stationAt q 0) ∨
  (∃ s, a.spanPosition = some (.name s) ∧ s ∈ ["tip", "Tip", "TIP"] ∧ x = stationAt q (q.nodes - 1)) ∨
  a.spanPosition = some (.frac x)

/-- `l` lists the airfoils of the propeller with the positions where they belong, no two at the same position. -/
def Placed (q : PropGeom) (l : List (ℝ × Airfoil)) : Prop :=
  List.Forall₂ (fun kv p => p.2 = kv.2 ∧ BelongsAt q kv.2 p.1) q.airfoils l ∧ (l.map Prod.fst).Nodup

/-- The value at station `i` of something (`f`) that depends on the airfoil: that of the default airfoil if none was given, that of the
only airfoil, or interpolated between the airfoils where they belong. -/
def AlongBlade (q : PropGeom) (f : Airfoil → ℝ) (i : ℕ) (v : ℝ) : Prop :=
  (q.airfoils = [] ∧ v = f (Airfoil.default "NACA2412")) ∨
  (∃ n a, q.airfoils = [(n, a)] ∧ v = f a) ∨
  (2 ≤ q.airfoils.length ∧ ∃ l, Placed q l ∧ Interpolates (l.map fun p => (p.1, f p.2)) (stationAt q i) v)

/-- `c` is the chord the chord description asks for at station `i`. -/
def ChordAt (table : String → ℝ → ℝ) (q : PropGeom) (i : ℕ) (c : ℝ) : Prop :=
  (q.chord.type = some "default" ∧ c = 0.075 * q.diameter * Real.sqrt (1 - stationAt q i ^ 2)) ∨
  (∃ root, q.chord.type = some "elliptical" ∧ q.chord.root = some root ∧ c = root * Real.sqrt (1 - stationAt q i ^ 2)) ∨
  (∃ root, q.chord.type = some "linear" ∧ q.chord.root = some root ∧
    c = (1 - i / ((q.nodes : ℝ) - 1)) * root + i / ((q.nodes : ℝ) - 1) * q.chord.tip.getD root) ∨
  (∃ f, q.chord.type = some "from_file" ∧ q.chord.filename = some f ∧ c = table f (stationAt q i) * (q.diameter / 2))

end Verif
