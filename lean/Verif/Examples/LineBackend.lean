import Verif.Spec.MUTrim
import Verif.Lemmas.MU
import Verif.Examples.LL
import Verif.Examples.FlatWing

/-! # A plane whose lift and pitching moment are given functions of alpha and elevator -/

namespace Verif
open Act

/-- lift `f alpha elevator`, pitching moment `m alpha elevator`, all other loads zero -/
noncomputable def curveB (f m : ℝ → ℝ → ℝ) : Backend (Fin 2) where
  σ := Unit
  π := Unit
  hasWings := true
  hasProps := false
  Sw := 1
  lat := 1
  long := 1
  propSolve := fun _ _ => Act.raise .attribute
  noField := fun h => by cases h
  wingSolve := fun d c st =>
    let a := d.alpha.getD 0
    let e := (c.bind (·.elevator)).getD 0
    (.ok { exSol with total := { Loads.zero with FL := f a e, MY := m a e } }, st)
  stallLoc := fun _ => none
  solveBad := fun st => (.ok none, st)

theorem curve_solve {f m : ℝ → ℝ → ℝ} {ps : Option Unit} {w : World (curveB f m)} {d : AeroDict (Fin 2)}
    (hd : w.aero = some d) (ht : d.truthy = true) :
    ∃ r w', muSolve ps w = (.ok r, w') ∧ r.FL = f (d.alpha.getD 0) ((w.ctrl.bind (·.elevator)).getD 0) ∧
      r.MY = m (d.alpha.getD 0) ((w.ctrl.bind (·.elevator)).getD 0) := by
  obtain ⟨st, aero, ctrl, objs, files⟩ := w
  simp only at hd
  subst hd
  refine ⟨Loads.zero.add { Loads.zero with
    FL := f (d.alpha.getD 0) ((ctrl.bind (·.elevator)).getD 0), MY := m (d.alpha.getD 0) ((ctrl.bind (·.elevator)).getD 0) },
    { st := st, aero := some d, ctrl := ctrl, files := files, objs := objs ++ [Loads.zero.add { Loads.zero with
      FL := f (d.alpha.getD 0) ((ctrl.bind (·.elevator)).getD 0),
      MY := m (d.alpha.getD 0) ((ctrl.bind (·.elevator)).getD 0) }] }, ?_, by simp [zero_add_loads],
    by simp [zero_add_loads]⟩
  unfold muSolve
  rw [get_bind, if_pos (by simp [aeroGiven, ht])]
  rfl

theorem curve_lift {f m : ℝ → ℝ → ℝ} (ps : Option Unit) (d : AeroDict (Fin 2)) (c : CtrlDict) :
    LiftCurve (B := curveB f m) ps d (some c) (fun x => f x (c.elevator.getD 0)) := by
  intro x w d' hd hs hc
  have hd' := hs.2 rfl
  subst hd'
  obtain ⟨r, w', h, h1, -⟩ := curve_solve (ps := ps) hd (by simp [AeroDict.truthy])
  exact ⟨r, w', h, by rw [h1, hc]; rfl⟩

theorem curve_trim {f m : ℝ → ℝ → ℝ} (ps : Option Unit) (d : AeroDict (Fin 2)) (c : CtrlDict) :
    TrimCurves (B := curveB f m) ps d c f m := by
  intro x e w d' hd hs hc
  have hd' := hs.2 rfl
  subst hd'
  obtain ⟨r, w', h, h1, h2⟩ := curve_solve (ps := ps) hd (by simp [AeroDict.truthy])
  exact ⟨r, w', h, by rw [h1, hc]; rfl, by rw [h2, hc]; rfl⟩

/-- a plane with wings whose loads are a given function of alpha -/
noncomputable def loadsB (F : ℝ → Loads) : Backend (Fin 2) where
  σ := Unit
  π := Unit
  hasWings := true
  hasProps := false
  Sw := 1
  lat := 1
  long := 1
  propSolve := fun _ _ => Act.raise .attribute
  noField := fun h => by cases h
  wingSolve := fun d _ st => (.ok { exSol with total := F (d.alpha.getD 0) }, st)
  stallLoc := fun _ => none
  solveBad := fun st => (.ok none, st)

theorem loads_solve {F : ℝ → Loads} {ps : Option Unit} {w : World (loadsB F)} {d : AeroDict (Fin 2)}
    (hd : w.aero = some d) (ht : d.truthy = true) : ∃ w', muSolve ps w = (.ok (F (d.alpha.getD 0)), w') := by
  obtain ⟨st, aero, ctrl, objs, files⟩ := w
  simp only at hd
  subst hd
  have h : muSolve (B := loadsB F) ps { st := st, aero := some d, ctrl := ctrl, objs := objs, files := files } =
      (.ok (Loads.zero.add (F (d.alpha.getD 0))), { st := st, aero := some d, ctrl := ctrl, files := files, objs := objs ++ [Loads.zero.add (F (d.alpha.getD 0))] }) := by
    unfold muSolve
    rw [get_bind, if_pos (by simp [aeroGiven, ht])]
    rfl
  rw [h, zero_add_loads]
  exact ⟨_, rfl⟩

end Verif
