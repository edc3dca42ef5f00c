import Verif.Thm.Waits
import Verif.Thm.DistribRows

/-!
# `distributions` has one outcome, however the propeller loops are bounded (C152)
-/

namespace Verif
open V3 Act

/-- what becomes of two tables does not depend on the state -/
theorem tables_fst {S S' α β : Type} (x : Except PyErr α) (y : Except PyErr β) (s : S) (s' : S') :
    ((Act.lift x >>= fun a => Act.lift y >>= fun b => pure (a, b) : Act S (α × β)) s).1 =
      ((Act.lift x >>= fun a => Act.lift y >>= fun b => pure (a, b) : Act S' (α × β)) s').1 := by
  cases x <;> cases y <;> rfl

section
variable {n : ℕ} {G : LLGeom (Fin n)} {wings props : Bool} {simps : List ℝ → List ℝ → ℝ} {fuel fuel' : ℕ} {Sw lat long : ℝ}
  {bad : Act (LLState (Fin n) × List (PropSlot (Fin n))) (Option Loads)}

theorem waits_full (h : fuel ≤ fuel') (ps : Option PropDict) :
    Waits (fullBackend G wings props simps fuel Sw lat long bad) (fullBackend G wings props simps fuel' Sw lat long bad) Eq ps ps where
  wings := rfl
  props := rfl
  Sw := rfl
  lat := rfl
  long := rfl
  propSolve := by
    rintro d ⟨l, sls⟩ s' rfl hn
    unfold fullBackend at hn ⊢
    simp only at hn ⊢
    rw [(Ends.propsSolve simps h _ _ _).to_eq hn]
    exact ⟨rfl, rfl⟩
  wingSolve := fun d c => Ends.same _
  stall := by
    rintro s s' rfl
    rfl
  bad := Ends.same _

/-- **C152, `distributions`.**  If `distributions` comes to an end within some bound on the passes of the propeller loops, it has the same
outcome, an exception or the tables, with any larger bound; `st` is the state of the solvers, left by any earlier calls. -/
theorem C152_distributions (h : fuel ≤ fuel') (ps : Option PropDict) (st : LLState (Fin n) × List (PropSlot (Fin n)))
    (a : Option (AeroDict (Fin n))) (c : Option CtrlDict)
    (hn : (distributions G wings props simps fuel Sw lat long bad ps { st := st, aero := a, ctrl := c }).1 ≠ .error .recursion) :
    (distributions G wings props simps fuel' Sw lat long bad ps { st := st, aero := a, ctrl := c }).1 =
      (distributions G wings props simps fuel Sw lat long bad ps { st := st, aero := a, ctrl := c }).1 := by
  let w : World (fullBackend G wings props simps fuel Sw lat long bad) := { st := st, aero := a, ctrl := c }
  let w' : World (fullBackend G wings props simps fuel' Sw lat long bad) := { st := st, aero := a, ctrl := c }
  have hL := (waits_full (G := G) (wings := wings) (props := props) (simps := simps) (Sw := Sw) (lat := lat) (long := long) (bad := bad) h ps).solve
    w w' ⟨rfl, rfl, rfl, rfl⟩
  show (distributions G wings props simps fuel' Sw lat long bad ps w').1 = (distributions G wings props simps fuel Sw lat long bad ps w).1
  change (distributions G wings props simps fuel Sw lat long bad ps w).1 ≠ .error .recursion at hn
  unfold distributions at hn ⊢
  rcases hq : muSolve (B := fullBackend G wings props simps fuel Sw lat long bad) ps w with ⟨e | T, v⟩ <;> rw [hq] at hL
  · rw [bind_of_error hq] at hn ⊢
    obtain ⟨k1, -⟩ := hL fun e1 => hn (by cases e1; rfl)
    rcases hq' : muSolve (B := fullBackend G wings props simps fuel' Sw lat long bad) ps w' with ⟨e' | T', v'⟩ <;> rw [hq'] at k1
    · rw [bind_of_error hq']
      cases k1
      rfl
    · cases k1
  · obtain ⟨k1, k2⟩ := hL (by simp)
    rcases hq' : muSolve (B := fullBackend G wings props simps fuel' Sw lat long bad) ps w' with ⟨e' | T', v'⟩ <;> rw [hq'] at k1 k2
    · cases k1
    · rw [bind_of_ok hq, bind_of_ok hq', get_bind, get_bind]
      have hs : v.st = v'.st := k2.st
      rw [hs]
      exact tables_fst _ _ v' v

end

-- a wing and a propeller: the tables come with one pass of the loops, and with any greater bound they are the same
example (bad : Act (LLState (Fin 2) × List (PropSlot (Fin 2))) (Option Loads)) (k : ℕ) :
    ∃ (st : LLState (Fin 2) × List (PropSlot (Fin 2))) (t : List WingRow) (pt : List PropRow),
      (distributions exGeom true true (fun _ _ => 1) (1 + k) 1 1 1 bad (some [("J", .num 0.5)]) { st := st, aero := some exAero, ctrl := some exCtrl }).1 =
        .ok (some t, some pt) := by
  obtain ⟨M, mem, T, w', -, h, -⟩ := pusher_run bad
  obtain ⟨t, pt, ht⟩ := distributions_of one_ne_zero h
  have h1 := congrArg Prod.fst ht
  exact ⟨_, t, pt, (C152_distributions (Nat.le_add_right 1 k) (some [("J", .num 0.5)]) _ _ _ (fun e => nomatch h1.symm.trans e)).trans h1⟩

end Verif
