import Verif.Lemmas.Halves
import Verif.Thm.CutWing

/-!
# A two-sided wing may be added as two one-sided wings (C138)
-/

namespace Verif
open V3

private theorem fresh_name (nm : String) (pos : Option V3) (ops : List PlaneOp) (q : String)
    (h : ∀ n parent location side d, .addWing n parent location side d ∈ ops → n ≠ q) :
    dictGet (built nm pos ops).wings q = none := by
  unfold built
  have : ∀ p : Plane, dictGet p.wings q = none → dictGet (Verif.runOps p ops).wings q = none := by
    induction ops with
    | nil => intro p h; exact h
    | cons op t ih =>
      intro p hq
      refine ih (fun a b c d e hm => h a b c d e (List.mem_cons_of_mem _ hm)) (op.run p) ?_
      cases op with
      | addWing name parent location side d =>
        have hne : q ≠ name := (h name parent location side d List.mem_cons_self).symm
        simp only [PlaneOp.run, addWing_eq]
        cases mkWing name side d with
        | error e => exact hq
        | ok w =>
          simp only
          cases targetOf (dictSet p.wings name p.heap.length) parent <;> simp only [dictGet_ne _ _ hne, hq]
      | airfoil id name e props =>
        simp only [PlaneOp.run, Plane.wingAirfoil]
        cases mkAirfoil name props <;> exact hq
      | controlSurface id props =>
        simp only [PlaneOp.run, Plane.wingCtrl]
        cases mkCtrlSurf props <;> exact hq
      | addProp name d => exact hq
      | propAirfoil name af props =>
        simp only [PlaneOp.run, Plane.propAirfoil]
        cases mkAirfoil af props with
        | error er => exact hq
        | ok a => simp only; cases dictGet p.props name <;> exact hq
      | cgLocation x y z => exact hq
      | setRefLengths a b => exact hq
  exact this _ (by simp [newPlane, dictGet])

/-- the two aircraft of `C138_halves` differ in names only -/
theorem halves_relabels (nm : String) (pos : Option V3) (before after : List PlaneOp) (units : Option (Option String))
    (w w' : String) (parent : Option String) (location : String) (d : WingDims) (N : ℕ)
    (hw : w ≠ "") (hw' : w' ≠ "") (hww : w ≠ w')
    (hfresh : ∀ nm parent location side d, .addWing nm parent location side d ∈ before → nm ≠ w ∧ nm ≠ w')
    (hpar : parent ≠ some w) (hpar' : parent ≠ some w')
    (hN : N = (built nm pos before).heap.length) (hafter : HalfCalls w w' after) (p p' : Plane)
    (hp : p = { built nm pos (before ++ [.addWing w parent location "both" d] ++ after) with units })
    (hp' : p' = { built nm pos (before ++ [.addWing w parent location "left" d, .addWing w' parent location "right" d] ++
      after.flatMap (PlaneOp.halve N w w')) with units }) : Relabels p p' := by
  have hhalf : PlaneHalf N w w' (built nm pos (before ++ [.addWing w parent location "both" d] ++ after))
      (built nm pos (before ++ [.addWing w parent location "left" d, .addWing w' parent location "right" d] ++
      after.flatMap (PlaneOp.halve N w w'))) := by
    have := (half_add (location := location) (d := d) (built_inv nm pos before) hww
      (fresh_name nm pos before w fun a b c d e hm => (hfresh a b c d e hm).1)
      (fresh_name nm pos before w' fun a b c d e hm => (hfresh a b c d e hm).2) hpar hpar').runOps hw hw' hww after hafter
    rw [← hN] at this
    simpa [built, runOps, List.foldl_append] using this
  have i1 : PlaneInv p := hp ▸ ⟨(built_inv nm pos _).1, (built_inv nm pos _).2⟩
  have i2 : PlaneInv p' := hp' ▸ ⟨(built_inv nm pos _).1, (built_inv nm pos _).2⟩
  have hh : PlaneHalf N w w' p p' := by
    rw [hp, hp']
    exact { hhalf with units := rfl }
  exact hh.relabels i1 i2

/-- **C138**. The aircraft `p` has a wing `w` added with both sides by one call.  The aircraft `p'` is made by the same calls, except that
the left half `w` and the right half `w'` are added by two calls, each with the connection and the dimensions of the wing; the airfoils
and the control surface are given to both halves, and what was connected to the wing is connected to the half on its side
(`PlaneOp.halve`).  A `MachUp` object can be constructed for `p'` iff it can be for `p`.  Its sections are those of `p`, in the same order
(with other names), and so are the reference area, every sequence of solves (with or without propellers) and the results of the derivative
methods. -/
theorem C138_halves (table : String → ℝ → ℝ) (mem : String → ℕ → ℕ → Option ℝ) (simps : List ℝ → List ℝ → ℝ) (fuel : ℕ)
    (nm : String) (pos : Option V3) (before after : List PlaneOp) (units : Option (Option String))
    (w w' : String) (parent : Option String) (location : String) (d : WingDims) (N : ℕ)
    (hw : w ≠ "") (hw' : w' ≠ "") (hww : w ≠ w')
    (hfresh : ∀ nm parent location side d, .addWing nm parent location side d ∈ before → nm ≠ w ∧ nm ≠ w')
    (hpar : parent ≠ some w) (hpar' : parent ≠ some w')
    (hN : N = (built nm pos before).heap.length) (hafter : HalfCalls w w' after) (p p' : Plane)
    (hp : p = { built nm pos (before ++ [.addWing w parent location "both" d] ++ after) with units })
    (hp' : p' = { built nm pos (before ++ [.addWing w parent location "left" d, .addWing w' parent location "right" d] ++
      after.flatMap (PlaneOp.halve N w w')) with units }) :
    ((∃ o, openMachUp table mem p = .ok o) ↔ ∃ o', openMachUp table mem p' = .ok o') ∧
    (∀ g g' : Grid, mkGrid p true = .ok g → mkGrid p' true = .ok g' →
      List.Forall₂ (fun s s' => s' = { s with name := s'.name }) g.data g'.data ∧ g'.refArea = g.refArea) ∧
    ∀ o o' : Analyser, openMachUp table mem p = .ok o → openMachUp table mem p' = .ok o' →
      ∃ σ : Fin (sectionsOf o.wing) ≃ Fin (sectionsOf o'.wing), (∀ i, (σ i).val = i.val) ∧
      (∀ (bad : _) (bad' : _) (calls : List (AeroDict (Fin (sectionsOf o.wing)) × Option CtrlDict × Option PropDict)),
        (∀ c ∈ calls, c.1.truthy = true) →
        List.Forall₂ (Outcome fun T T' => T' = T)
          (solveSeq (o.fresh p simps fuel bad none none) (calls.map fun c => ⟨some c.1, c.2.1, c.2.2⟩))
          (solveSeq (o'.fresh p' simps fuel bad' none none) (calls.map fun c => ⟨some (c.1.reindex σ), c.2.1, c.2.2⟩))) ∧
      ∀ (bad : _) (bad' : _) (a : AeroDict (Fin (sectionsOf o.wing))) (c : Option CtrlDict) (ps : Option PropDict),
        a.Vmag.isSome → a.rho.isSome →
        let x := o.fresh p simps fuel bad (some a) c
        let x' := o'.fresh p' simps fuel bad' (some (a.reindex σ)) c
        (derivatives ps none x').1 = (derivatives ps none x).1 ∧
        (stabilityDerivatives ps x').1 = (stabilityDerivatives ps x).1 ∧
        (controlDerivatives ps x').1 = (controlDerivatives ps x).1 ∧
        (dampingDerivatives ps x').1 = (dampingDerivatives ps x).1 := by
  have h := halves_relabels nm pos before after units w w' parent location d N hw hw' hww hfresh hpar hpar' hN hafter p p' hp hp'
  clear hp hp'
  refine ⟨open_relabel h, fun g g' hg hg' => ?_, fun o o' ho ho' => solves_relabel simps fuel h ho ho'⟩
  obtain ⟨h1, -, h3⟩ := alike_grids h.segs hg hg'
  exact ⟨h1, h3⟩

-- C138: the wing of an aircraft with a propeller, added as two halves: both objects can be constructed, and their derivatives agree
example (table : String → ℝ → ℝ) (mem : String → ℕ → ℕ → Option ℝ) (simps : List ℝ → List ℝ → ℝ) (fuel : ℕ) :
    ∃ (p' : Plane) (o o' : Analyser), p' = { built "craft" none
        ([.addWing "w" none "tip" "left" { semispan := some 1, grid := some 1 },
          .addWing "v" none "tip" "right" { semispan := some 1, grid := some 1 },
          .airfoil 0 "af" "both" { al0 := some (-1/20), cla := some 6, clMax := some (7/5), cml0 := some (-1/20), cma := some (-1/10), cd0 := some (1/100), cd1 := some 0, cd2 := some (1/100) },
          .airfoil 1 "af" "both" { al0 := some (-1/20), cla := some 6, clMax := some (7/5), cml0 := some (-1/20), cma := some (-1/10), cd0 := some (1/100), cd1 := some 0, cd2 := some (1/100) },
          .controlSurface 0 { percentSpan := some (0, 1), percentChord := some (.single (1/4)), mix := some { aileron := some 1, elevator := some 1 } },
          .controlSurface 1 { percentSpan := some (0, 1), percentChord := some (.single (1/4)), mix := some { aileron := some 1, elevator := some 1 } },
          .cgLocation (some 1) none none] ++ rotorOps) with units := some none } ∧
    openMachUp table mem craft = .ok o ∧ openMachUp table mem p' = .ok o' ∧
    sectionsOf o.wing = 2 ∧ ∃ σ : Fin (sectionsOf o.wing) ≃ Fin (sectionsOf o'.wing), ∀ bad bad',
    (derivatives (some [("rot_per_sec", .num 30)]) none
      (o'.fresh p' simps fuel bad' (some (({ Vmag := some 10, rho := some 1 } : AeroDict (Fin (sectionsOf o.wing))).reindex σ)) none)).1 =
    (derivatives (some [("rot_per_sec", .num 30)]) none (o.fresh craft simps fuel bad (some { Vmag := some 10, rho := some 1 }) none)).1 := by
  obtain ⟨g, M, hg, ho⟩ := craft_open table mem
  have hC := C138_halves table mem simps fuel "craft" none [] (unitOps.tail ++ rotorOps) (some none) "w" "v" none "tip"
    { semispan := some 1, grid := some 1 } 0 (by decide) (by decide) (by decide) (by simp) (by simp) (by simp) rfl
    ⟨by simp [unitOps, rotorOps], by simp [unitOps, rotorOps]⟩ craft _ rfl rfl
  obtain ⟨o', ho'⟩ := hC.1.1 ⟨_, ho⟩
  obtain ⟨σ, -, -, h⟩ := hC.2.2 _ o' ho ho'
  refine ⟨_, _, o', ?_, ho, ho', hg, σ, fun bad bad' => (h bad bad' { Vmag := some 10, rho := some 1 } none
    (some [("rot_per_sec", .num 30)]) rfl rfl).1⟩
  simp [unitOps, rotorOps, PlaneOp.halve]

-- C138: the winglets of the aircraft `demo`, which are connected to the tips of its main wing, may be added as two wings
example : ∃ (d : WingDims) (before after : List PlaneOp), demo = built "demo" none (before ++ [.addWing "Winglet" (some "Main") "tip" "both" d] ++ after) ∧
    (∀ nm parent location side d, .addWing nm parent location side d ∈ before → nm ≠ "Winglet" ∧ nm ≠ "Winglet 2") ∧
    (built "demo" none before).heap.length = 1 ∧ HalfCalls "Winglet" "Winglet 2" after ∧ ∃ g, mkGrid demo true = .ok g := by
  refine ⟨_, [_], _, rfl, ?_, rfl, ⟨?_, ?_⟩, demo_grid true⟩
  · intro nm parent location side d hm
    simp only [List.mem_cons, PlaneOp.addWing.injEq, List.not_mem_nil, or_false] at hm
    obtain ⟨rfl, _⟩ := hm
    decide
  · intro nm parent location side d hm
    simp only [List.mem_cons, PlaneOp.addWing.injEq, List.not_mem_nil, or_false, reduceCtorEq] at hm
    obtain ⟨rfl, rfl, _⟩ := hm
    decide
  · intro nm location d hm
    simp at hm

end Verif
