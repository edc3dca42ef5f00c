import Verif.Model.MUInit
import Verif.Model.MachUpFull

/-!
# A `MachUp` object and the `Airplane` it was constructed for

`MachUp` keeps a reference to the `Airplane` and looks at it again in every analysis: whether it has wings and propellers
(`MU.py:152`, `157`), and where its CG is (`llgrid.py:424`; the propeller models hold the very array `cg_location` writes to,
`geometry.py:386-391`, `propssolver.py:12`, `propmodel.py:40`).  Everything else was copied when the object was constructed.
-/

namespace Verif
open V3

/-- number of sections of the wing model (`llmodel.py:85-88`) -/
def sectionsOf : Option WingPart → ℕ
  | none => 0
  | some w => w.grid.data.length

/-- `wing_control_points` (`MU.py:69`, `76`) -/
def pointsOf : (w : Option WingPart) → Option (Fin (sectionsOf w) → V3)
  | none => none
  | some w => some fun i => (w.grid.data.get i).rcp

/-- the arrays of the grid, with the CG of the aircraft (`llmodel.py:85-88`) -/
def geomOf (cg : V3) : (w : Option WingPart) → LLGeom (Fin (sectionsOf w))
  | none => ⟨cg, fun i => i.elim0⟩
  | some w => w.grid.geom cg

/-- what the constructor of a `MachUp` object stored; `none` = the attribute does not exist (`MU.py:62-99`) -/
structure Analyser where
  wing : Option WingPart
  /-- `myprops` -/
  slots : Option (List (PropSlot (Fin (sectionsOf wing))))

/-- `PropsSolver.__init__` (`propssolver.py:7-14`): one slot per propeller name, `mem` is the uninitialised memory -/
noncomputable def openProps {ι : Type} (table : String → ℝ → ℝ) (mem : String → ℕ → ℕ → Option ℝ) (p : Plane)
    (pts : Option (ι → V3)) : Except PyErr (List (PropSlot ι)) := do
  let ms ← (p.props.map Prod.snd).foldlM (fun d q => do
    let u ← p.getUnits
    let m ← mkPropM table q p.cg u pts
    return dictSet d q.name m) []
  return ms.map fun kv => { name := kv.1, model := kv.2, st := { mem := mem kv.1 } }

/-- `MachUp.__init__` (`MU.py:62-99`) -/
noncomputable def openMachUp (table : String → ℝ → ℝ) (mem : String → ℕ → ℕ → Option ℝ) (p : Plane) : Except PyErr Analyser := do
  let w ← mkWingPart p
  if p.props = [] then return ⟨w, none⟩
  else do
    let s ← openProps table mem p (pointsOf w)
    return ⟨w, some s⟩

/-- the propeller models with the CG the aircraft has now (`propmodel.py:40`: the array of `geometry.py:357` is shared) -/
def PropSlot.withCg {ι : Type} (cg : V3) (s : PropSlot ι) : PropSlot ι := { s with model := { s.model with cg } }

/-- without wing points there is no velocity field (`propssolver.py:59-66`) -/
theorem propsSolve_noPoints {ι : Type} {simps : List ℝ → List ℝ → ℝ} {fuel : ℕ} {aero : Option (AeroDict ι)} {ps : PropDict}
    {sls sls' : List (PropSlot ι)} {r : PropTotals} {f : Option (ι → ℝ × V3)}
    (h : propsSolve simps fuel none aero ps sls = (.ok (r, f), sls')) : f = none := by
  unfold propsSolve at h
  rw [show ∀ (m : Act (List (PropSlot ι)) (PropTotals × List PropOut)) g, (m >>= g) = Act.seq m g from fun _ _ => rfl] at h
  unfold Act.seq at h
  rcases hq : propsForces simps fuel aero ps sls with ⟨e | ⟨tot, outs⟩, s2⟩
  · rw [hq] at h; simp at h
  · rw [hq] at h
    change ((.ok (tot, none) : Except PyErr (PropTotals × Option (ι → ℝ × V3))), s2) = (.ok (r, f), sls') at h
    cases h
    rfl

namespace Analyser

/-- The methods of a `MachUp` object `o` whose aircraft now has its CG at `cg`, and has wings (`wings`) and propellers
(`props`) (`MU.py:147-173`).
A plane that has wings (propellers) while the object has no wing (propeller) model: `AttributeError`.
Simplification: no wings are ever removed from an `Airplane`, so that an object with a wing model always has a plane with wings;
for a plane without wings the velocity field is `none` here. -/
noncomputable def backendOf (o : Analyser) (wings props : Bool) (cg : V3) (simps : List ℝ → List ℝ → ℝ) (fuel : ℕ)
    (bad : Act (LLState (Fin (sectionsOf o.wing)) × List (PropSlot (Fin (sectionsOf o.wing)))) (Option Loads)) :
    Backend (Fin (sectionsOf o.wing)) where
  σ := LLState (Fin (sectionsOf o.wing)) × List (PropSlot (Fin (sectionsOf o.wing)))
  π := PropDict
  hasWings := wings
  hasProps := props
  Sw := (o.wing.map (·.Sw)).getD 0
  lat := (o.wing.map (·.lat)).getD 0
  long := (o.wing.map (·.long)).getD 0
  propSolve := fun d ps st =>
    if o.slots.isSome then
      match propsSolve simps fuel (if wings then pointsOf o.wing else none) (some d) (ps.getD [])
        (st.2.map (·.withCg cg)) with
      | (r, sls) => (r, (st.1, sls))
    else (.error .attribute, st)
  noField := by
    intro h d ps s r f s' hs
    by_cases ho : o.slots.isSome = true
    · rw [if_pos ho, if_neg (by simp [h])] at hs
      rcases hq : propsSolve simps fuel none (some d) (ps.getD []) (s.2.map (·.withCg cg)) with ⟨x, sls⟩
      rw [hq] at hs
      simp only [Prod.mk.injEq] at hs
      obtain ⟨rfl, -⟩ := hs
      exact propsSolve_noPoints hq
    · rw [if_neg ho] at hs
      simp at hs
  wingSolve := fun d c st =>
    if o.wing.isSome then
      match llSolve (geomOf cg o.wing) st.1 "linear" (some d) c with
      | (r, ll) => (r, (ll, st.2))
    else (.error .attribute, st)
  stallLoc := fun st => st.1.results.bind fun R => findStall (geomOf cg o.wing).S R.cl
  solveBad := bad

/-- the methods of a `MachUp` object `o` whose aircraft is now `p` (`MU.py:62-1335`) -/
noncomputable def backend (o : Analyser) (p : Plane) (simps : List ℝ → List ℝ → ℝ) (fuel : ℕ)
    (bad : Act (LLState (Fin (sectionsOf o.wing)) × List (PropSlot (Fin (sectionsOf o.wing)))) (Option Loads)) :
    Backend (Fin (sectionsOf o.wing)) :=
  o.backendOf (!p.wings.isEmpty) (!p.props.isEmpty) p.cg simps fuel bad

/-- the state of a fresh object together with the arguments of the first call (`MU.py:62-99`, `101`) -/
noncomputable def fresh (o : Analyser) (p : Plane) (simps : List ℝ → List ℝ → ℝ) (fuel : ℕ)
    (bad : Act (LLState (Fin (sectionsOf o.wing)) × List (PropSlot (Fin (sectionsOf o.wing)))) (Option Loads))
    (aero : Option (AeroDict (Fin (sectionsOf o.wing)))) (ctrl : Option CtrlDict) : World (o.backend p simps fuel bad) where
  st := (LLState.init _, o.slots.getD [])
  aero := aero
  ctrl := ctrl

end Analyser

end Verif
