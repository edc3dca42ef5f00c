import Verif.Thm.DeadControl
import Verif.Thm.DistribRows

/-!
# A control that moves no surface has no effect on the tables of `distributions` (C146)
-/

namespace Verif
open V3 Act

variable {I : Control → Prop}

theorem fullBackend_ignores {n : ℕ} {G : LLGeom (Fin n)} {wings props : Bool} {simps : List ℝ → List ℝ → ℝ} {fuel : ℕ} {Sw lat long : ℝ}
    {bad : Act (LLState (Fin n) × List (PropSlot (Fin n))) (Option Loads)} (hI : ∀ x, I x → ∀ i, (G.S i).share x = 0) :
    Ignores (fullBackend G wings props simps fuel Sw lat long bad) I := by
  intro d c c' h
  have hll : ∀ st, llSolve G st "linear" (some d) c' = llSolve G st "linear" (some d) c := by
    intro st
    unfold llSolve
    simp only [processCtrl_dead hI h]
  funext s
  show (match llSolve G (Prod.fst s) "linear" (some d) c' with | (r, ll) => (r, (ll, Prod.snd s))) =
    (match llSolve G (Prod.fst s) "linear" (some d) c with | (r, ll) => (r, (ll, Prod.snd s)))
  rw [hll]

/-- the states after two such sessions -/
theorem afterCalls_unmoved {ι : Type} {B : Backend ι} (hF : Ignores B I) (cg : V3) {l l' : List (AnyCall B)}
    (h : List.Forall₂ (AnyCall.SameMoving I) l l') : ∀ {w w' : World B}, w'.files = w.files → w'.st = w.st →
      (afterCalls cg w' l').files = (afterCalls cg w l).files ∧ (afterCalls cg w' l').st = (afterCalls cg w l).st := by
  induction h with
  | nil => intro w w' h1 h2; exact ⟨h1, h2⟩
  | @cons c c' l l' hc _ ih =>
    intro w w' h1 h2
    have k : Unmoved I (c.run cg w).2 (c'.run cg w').2 := by
      unfold AnyCall.run
      rw [hc.what, hc.ps]
      exact (Still.any (ps := c.ps) hF cg c.what { w with aero := c.aero, ctrl := c.ctrl } { w' with aero := c'.aero, ctrl := c'.ctrl }
        ⟨hc.aero, hc.ctrl, h1, h2⟩).2
    exact ih k.files k.st

/-- **C146, `distributions`.** `I` are controls that move no surface of the aircraft.  After two sequences of calls that differ only in the
deflections of these controls, `distributions` for two `control_state`s that differ only in them has the same outcome: the same exception,
or the same wing and propeller tables. -/
theorem C146_distributions {nm : String} {pos : Option V3} {ops : List PlaneOp} {cosine : Bool} {g : Grid}
    (hg : mkGrid (built nm pos ops) cosine = .ok g) (hI : ∀ x, I x → MovesNothing ops x) {cg : V3} {wings props : Bool}
    {simps : List ℝ → List ℝ → ℝ} {fuel : ℕ} {Sw lat long : ℝ} {bad}
    (w0 : World (fullBackend (g.geom cg) wings props simps fuel Sw lat long bad))
    (hist hist' : List (AnyCall (fullBackend (g.geom cg) wings props simps fuel Sw lat long bad)))
    (hh : List.Forall₂ (AnyCall.SameMoving I) hist hist') (a : Option (AeroDict (Fin g.data.length))) (c c' : Option CtrlDict)
    (hc : SameMoving I c c') (ps : Option PropDict) :
    (distributions (g.geom cg) wings props simps fuel Sw lat long bad ps { afterCalls cg w0 hist' with aero := a, ctrl := c' }).1 =
      (distributions (g.geom cg) wings props simps fuel Sw lat long bad ps { afterCalls cg w0 hist with aero := a, ctrl := c }).1 := by
  have hF : Ignores (fullBackend (g.geom cg) wings props simps fuel Sw lat long bad) I :=
    fullBackend_ignores fun x hx i => grid_dead hg (built_dead nm pos (hI x hx)) cg i
  obtain ⟨k1, k2⟩ := afterCalls_unmoved hF cg hh (w := w0) (w' := w0) rfl rfl
  have hL : Lock (Unmoved I) Same (distributions (g.geom cg) wings props simps fuel Sw lat long bad ps)
      (distributions (g.geom cg) wings props simps fuel Sw lat long bad ps) := by
    have lift' : ∀ {α : Type} (x : Except PyErr α),
        Lock (Unmoved (B := fullBackend (g.geom cg) wings props simps fuel Sw lat long bad) I) Same (Act.lift x) (Act.lift x) := by
      intro α x w w' h
      rw [lift_run, lift_run]
      exact ⟨Outcome.of_eq rfl, h⟩
    unfold distributions
    refine Still.bind' (Still.solve hF) fun _ => ?_
    exact Still.get' (o := fun w => w.st) (f := fun st => Act.lift (wingTable st (g.geom cg) wings long) >>= fun wt =>
      Act.lift (propTable st props) >>= fun pt => pure (wt, pt)) (fun _ _ h => h.st) fun st =>
        Still.bind' (lift' _) fun _ => Still.bind' (lift' _) fun _ => Still.pure' _
  exact Outcome.to_eq (hL { afterCalls cg w0 hist with aero := a, ctrl := c } { afterCalls cg w0 hist' with aero := a, ctrl := c' }
    ⟨rfl, hc, k1, k2⟩).1

-- the wing of the demonstration aircraft: other deflections of the rudder, which moves nothing, give the same table, and there is one
example (simps : List ℝ → List ℝ → ℝ) (fuel : ℕ) (x : ℝ) : ∃ g, mkGrid (built "unit" none unitOps) true = .ok g ∧
    ∀ bad, ∃ (w0 : World (fullBackend (g.geom unitPlane.cg) true false simps fuel 2 2 1 bad)) (t : List WingRow),
      (distributions (g.geom unitPlane.cg) true false simps fuel 2 2 1 bad none
        { w0 with aero := some (unitAero _), ctrl := some { exCtrl with rudder := some x } }).1 = .ok (some t, none) := by
  obtain ⟨g, hg, hsol⟩ := unit_forces true
  refine ⟨g, hg, fun bad => ?_⟩
  let w : World (fullBackend (g.geom unitPlane.cg) true false simps fuel 2 2 1 bad) :=
    { st := (LLState.init _, []), aero := some (unitAero _), ctrl := some exCtrl }
  obtain ⟨R, hR, -⟩ := hsol (LLState.init _)
  have hm : ∃ T w', muSolve (B := fullBackend (g.geom unitPlane.cg) true false simps fuel 2 2 1 bad) none w = (.ok T, w') := by
    have := muSolve_wingsOnly (B := fullBackend (g.geom unitPlane.cg) true false simps fuel 2 2 1 bad) rfl rfl (ps := none)
      (w := w) (d := unitAero _) rfl rfl
    have e : ((fullBackend (g.geom unitPlane.cg) true false simps fuel 2 2 1 bad).wingSolve (unitAero _) w.ctrl w.st).1 =
        .ok R := hR
    rw [e] at this
    rcases hq : muSolve (B := fullBackend (g.geom unitPlane.cg) true false simps fuel 2 2 1 bad) none w with ⟨y, w'⟩
    have h1 : y = _ := (congrArg Prod.fst hq).symm.trans this
    exact ⟨_, w', by rw [h1]; rfl⟩
  obtain ⟨T, w', hm⟩ := hm
  obtain ⟨t, ht⟩ := distributions_wings one_ne_zero hm
  refine ⟨w, t, ?_⟩
  refine (C146_distributions (I := fun y => y = .rudder) hg (fun y hy => unit_dead y (.inl hy)) w [] [] .nil (some (unitAero _)) (some exCtrl)
    (some { exCtrl with rudder := some x }) (.entries _ _ ⟨rfl, rfl, fun y hy => ?_⟩) none).trans (congrArg Prod.fst ht)
  cases y <;> first | rfl | exact absurd rfl hy

end Verif
