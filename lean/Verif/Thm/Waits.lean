import Verif.Lemmas.WaitsProp
import Verif.Spec.Waits
import Verif.Thm.PropReadsCalls

/-!
# One outcome (C152)

The loops of the propeller analysis are modelled with a bound on their passes.  The bound does not matter: what has an outcome with some
bound has the same outcome with every larger one.
-/

namespace Verif
open V3 Act

variable {ι : Type} {B B' : Backend ι} {R : B.σ → B'.σ → Prop}

theorem outcomes_waits {γ : Type} (f : γ → AnyCall B) (f' : γ → AnyCall B')
    (hf : ∀ x, (f' x).what = (f x).what ∧ (f' x).aero = (f x).aero ∧ (f' x).ctrl = (f x).ctrl ∧ Waits B B' R (f x).ps (f' x).ps) (cg : V3) :
    ∀ (l : List γ) (w : World B) (w' : World B'), w'.files = w.files → R w.st w'.st → .error .recursion ∉ outcomes cg w (l.map f) →
      outcomes cg w' (l.map f') = outcomes cg w (l.map f) ∧ (afterCalls cg w' (l.map f')).files = (afterCalls cg w (l.map f)).files := by
  intro l
  induction l with
  | nil => intro w w' h _ _; exact ⟨rfl, h⟩
  | cons x l ih =>
    intro w w' hF hR hn
    obtain ⟨e1, e2, e3, e4⟩ := hf x
    simp only [List.map_cons, outcomes, List.mem_cons, not_or] at hn
    have hc : ((f' x).run cg w').1 = ((f x).run cg w).1 ∧ Alongside R ((f x).run cg w).2 ((f' x).run cg w').2 := by
      unfold AnyCall.run
      unfold AnyCall.run at hn
      rw [e1, e2, e3]
      exact e4.any cg _ _ _ ⟨rfl, rfl, hF, hR⟩ (fun h => hn.1 h.symm)
    obtain ⟨i1, i2⟩ := ih _ _ hc.2.files hc.2.st hn.2
    simp only [List.map_cons, outcomes, hc.1, i1, true_and]
    exact i2

theorem calls_waits {o : Analyser} {p : Plane} {simps : List ℝ → List ℝ → ℝ}
    {bad : Act (LLState (Fin (sectionsOf o.wing)) × List (PropSlot (Fin (sectionsOf o.wing)))) (Option Loads)}
    {calls : List (Analysis × Option (AeroDict (Fin (sectionsOf o.wing))) × Option CtrlDict × Option PropDict)} {n n' : ℕ} (hn : n ≤ n')
    (h : .error .recursion ∉ outcomes p.cg (o.fresh p simps n bad none none) (calls.map fun c => ⟨c.1, c.2.1, c.2.2.1, c.2.2.2⟩)) :
    outcomes p.cg (o.fresh p simps n' bad none none) (calls.map fun c => ⟨c.1, c.2.1, c.2.2.1, c.2.2.2⟩) =
      outcomes p.cg (o.fresh p simps n bad none none) (calls.map fun c => ⟨c.1, c.2.1, c.2.2.1, c.2.2.2⟩) ∧
    (afterCalls p.cg (o.fresh p simps n' bad none none) (calls.map fun c => ⟨c.1, c.2.1, c.2.2.1, c.2.2.2⟩)).files =
      (afterCalls p.cg (o.fresh p simps n bad none none) (calls.map fun c => ⟨c.1, c.2.1, c.2.2.1, c.2.2.2⟩)).files := by
  have hw : ∀ ps : Option PropDict, Waits (o.backend p simps n bad) (o.backend p simps n' bad) Eq ps ps := fun ps => waits o _ _ _ simps hn bad ps
  refine outcomes_waits (B := o.backend p simps n bad) (B' := o.backend p simps n' bad) (R := Eq)
    (γ := Analysis × Option (AeroDict (Fin (sectionsOf o.wing))) × Option CtrlDict × Option PropDict)
    (fun c => ⟨c.1, c.2.1, c.2.2.1, c.2.2.2⟩) (fun c => ⟨c.1, c.2.1, c.2.2.1, c.2.2.2⟩) (fun c => ⟨rfl, rfl, rfl, hw c.2.2.2⟩) p.cg calls
    (o.fresh p simps n bad none none) (o.fresh p simps n' bad none none) rfl rfl h

/-- **C152.**  However the loops are bounded, the outcomes of a sequence of calls, all of which come to an end, and the files they write,
are determined by the aircraft and the calls. -/
theorem C152_one_outcome {o : Analyser} {p : Plane} {simps : List ℝ → List ℝ → ℝ}
    {bad : Act (LLState (Fin (sectionsOf o.wing)) × List (PropSlot (Fin (sectionsOf o.wing)))) (Option Loads)}
    {calls : List (Analysis × Option (AeroDict (Fin (sectionsOf o.wing))) × Option CtrlDict × Option PropDict)}
    {os os' : List (Except PyErr Answer)} {F F' : List (String × Doc (Fin (sectionsOf o.wing)))}
    (h : EndsWith o p simps bad calls os F) (h' : EndsWith o p simps bad calls os' F') : os' = os ∧ F' = F := by
  obtain ⟨n, rfl, rfl, h3⟩ := h
  obtain ⟨n', rfl, rfl, h3'⟩ := h'
  rcases le_total n n' with hn | hn
  · exact calls_waits hn h3
  · obtain ⟨k1, k2⟩ := calls_waits hn h3'
    exact ⟨k1.symm, k2.symm⟩

/-- **C152, waiting longer.**  A bound that is large enough may be replaced by any larger one. -/
theorem C152_longer {o : Analyser} {p : Plane} {simps : List ℝ → List ℝ → ℝ}
    {bad : Act (LLState (Fin (sectionsOf o.wing)) × List (PropSlot (Fin (sectionsOf o.wing)))) (Option Loads)}
    {calls : List (Analysis × Option (AeroDict (Fin (sectionsOf o.wing))) × Option CtrlDict × Option PropDict)} {n n' : ℕ} (hn : n ≤ n')
    (h : .error .recursion ∉ outcomes p.cg (o.fresh p simps n bad none none) (calls.map fun c => ⟨c.1, c.2.1, c.2.2.1, c.2.2.2⟩)) :
    outcomes p.cg (o.fresh p simps n' bad none none) (calls.map fun c => ⟨c.1, c.2.1, c.2.2.1, c.2.2.2⟩) =
      outcomes p.cg (o.fresh p simps n bad none none) (calls.map fun c => ⟨c.1, c.2.1, c.2.2.1, c.2.2.2⟩) :=
  (calls_waits hn h).1

/-- the aircraft with two propellers: `solve` comes to an end -/
example : ∃ (mem : String → ℕ → ℕ → Option ℝ) (o : Analyser), openMachUp (fun _ _ => 0) mem pair = .ok o ∧ ∀ bad, ∃ T F,
    EndsWith o pair (fun _ _ => 1) bad [(.solve none, some { Vmag := some 10, rho := some 1 }, none, some [("J", .num 0.5)])] [.ok (.loads T)] F := by
  obtain ⟨mem, o, h1, h2⟩ := pair_solve
  refine ⟨mem, o, h1, fun bad => ?_⟩
  obtain ⟨T, w', h⟩ := h2 bad
  have hr : ((⟨.solve none, some { Vmag := some 10, rho := some 1 }, none, some [("J", .num 0.5)]⟩ : AnyCall (o.backend pair (fun _ _ => 1) 1 bad)).run
      pair.cg (o.fresh pair (fun _ _ => 1) 1 bad none none)) = (.ok (.loads T), w') :=
    (bind_of_ok (f := fun r => pure (Answer.loads r)) (muSolveFile_of_muSolve rfl h)).trans rfl
  refine ⟨T, _, 1, ?_, rfl, by simp⟩
  simp only [List.map_cons, List.map_nil, outcomes]
  exact congrArg (fun x => [x.1]) hr

end Verif
