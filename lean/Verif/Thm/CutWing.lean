import Verif.Lemmas.CutGrid
import Verif.Thm.GridExists

/-!
# A wing may be described in one piece or in two (C130)
-/

namespace Verif
open V3

private theorem fresh_built (nm : String) (pos : Option V3) (ops : List PlaneOp) (q : String)
    (h : ∀ n parent location side d, .addWing n parent location side d ∈ ops → n ≠ q) :
    q ∉ (built nm pos ops).wings.map (·.1) := by
  unfold built
  have : ∀ p : Plane, dictGet p.wings q = none → dictGet (Verif.runOps p ops).wings q = none := by
    induction ops with
    | nil => intro p h; exact h
    | cons op t ih =>
      intro p hq
      refine ih (fun a b c d e hm => h a b c d e (List.mem_cons_of_mem _ hm)) (op.run p) ?_
      cases op with
      | addWing name parent location side d =>
        have hne : q ≠ name := (h name parent location side d List.mem_cons_self).symm
        simp only [PlaneOp.run, addWing_eq]
        cases mkWing name side d with
        | error e => exact hq
        | ok w =>
          simp only
          cases targetOf (dictSet p.wings name p.heap.length) parent <;> simp only [dictGet_ne _ _ hne, hq]
      | airfoil id name e props =>
        simp only [PlaneOp.run, Plane.wingAirfoil]
        cases mkAirfoil name props <;> exact hq
      | controlSurface id props =>
        simp only [PlaneOp.run, Plane.wingCtrl]
        cases mkCtrlSurf props <;> exact hq
      | addProp name d => exact hq
      | propAirfoil name af props =>
        simp only [PlaneOp.run, Plane.propAirfoil]
        cases mkAirfoil af props with
        | error er => exact hq
        | ok a => simp only; cases dictGet p.props name <;> exact hq
      | cgLocation x y z => exact hq
      | setRefLengths a b => exact hq
  rw [mem_keys_iff, this _ (by simp [newPlane, dictGet])]
  simp

/-- **C130**. The aircraft `p` has a wing `w` with `n` sections per side, added by one call.  The aircraft `p'` is made by the same calls,
except that the wing is described in two pieces that meet at a section boundary, `k` sections inside and `n - k` outside: the outer
piece `w'` continues the inner one at its tip (`WingDims.inner`, `WingDims.outer`), both pieces get the airfoil of the wing and their part
of its control surface, and what was connected to the wing's tip is connected to the outer piece (`PlaneOp.cut`).  With evenly spaced
sections, `p'` can be discretised iff `p` can, with the same reference area, the panels of `p'` are those of `p`, and every solve gives
the same loads. -/
theorem C130_cut (nm : String) (pos : Option V3) (before after : List PlaneOp)
    (w w' : String) (parent : Option String) (location side : String) (d : WingDims) (n k N : ℕ) (x : ℝ)
    (hside : side = "both" ∨ side = "left" ∨ side = "right") (hw : w ≠ "") (hw' : w' ≠ "") (hww : w ≠ w')
    (hfresh : ∀ nm parent location side d, .addWing nm parent location side d ∈ before → nm ≠ w ∧ nm ≠ w')
    (hpar : parent ≠ some w) (hn : d.grid.getD 40 = n) (hk : 0 < k) (hkn : k < n) (hx : x = (k : ℝ) / n)
    (hN : N = (built nm pos before).heap.length) (hafter : CutCalls N w w' after) (p p' : Plane)
    (hp : p = built nm pos (before ++ [.addWing w parent location side d] ++ after))
    (hp' : p' = built nm pos (before ++
      [.addWing w parent location side (d.inner x k), .addWing w' (some w) "tip" side (d.outer x (n - k))] ++
      after.flatMap (PlaneOp.cut N w w' x))) :
    ((∃ g, mkGrid p false = .ok g) ↔ ∃ g', mkGrid p' false = .ok g') ∧
    ∀ g g' : Grid, mkGrid p false = .ok g → mkGrid p' false = .ok g' →
      g'.refArea = g.refArea ∧
      ∃ σ : Fin g.data.length ≃ Fin g'.data.length,
        (∀ i, SamePanel (g.data.get i).toSection (g'.data.get (σ i)).toSection) ∧
        ∀ (a : AeroDict (Fin g.data.length)) (c : Option CtrlDict), a.truthy = true →
        Outcome (fun R R' => R'.inviscid = R.inviscid ∧ R'.viscous = R.viscous ∧ R'.total = R.total ∧
            SameSections σ R R' ∧ (∀ i, R'.gamma (σ i) = R.gamma i) ∧ R'.LD = R.LD)
          (llSolve (g.geom p.cg) (LLState.init _) "linear" (some a) c).1
          (llSolve (g'.geom p'.cg) (LLState.init _) "linear" (some (a.reindex σ)) c).1 := by
  have hcut : PlaneCut N x w w' p p' := by
    have := (cut_add (location := location) (built_inv nm pos before) (nodup_built nm pos before) hside hw hww
      (fresh_built nm pos before w fun a b c d e hm => (hfresh a b c d e hm).1)
      (fresh_built nm pos before w' fun a b c d e hm => (hfresh a b c d e hm).2) hpar hn hk hkn hx).runOps hw hw' after
      (by rw [← hN]; exact hafter)
    rw [← hN] at this
    rw [hp, hp']
    simpa [built, runOps, List.foldl_append] using this
  have i1 : PlaneInv p := hp ▸ built_inv nm pos _
  have i2 : PlaneInv p' := hp' ▸ built_inv nm pos _
  clear hp hp'
  obtain ⟨h1, h2⟩ := hcut.grids i1 i2
  refine ⟨h1, fun g g' hg hg' => ?_⟩
  obtain ⟨href, himg⟩ := h2 g g' hg hg'
  obtain ⟨σ, hσ⟩ := himg.equiv
  refine ⟨href, σ, hσ, fun a c ha => ?_⟩
  have h := llSolve_panels (g.geom p.cg) (g'.geom p'.cg) σ hcut.cg hσ a c ha
  exact h.mono fun R R' _ _ hi => by
    obtain ⟨hl, h2, h3, h4⟩ := hi
    have e : ∀ l : Loads, l.scale 1 1 = l := fun l => by ext <;> simp [Loads.scale]
    exact ⟨by rw [hl.inviscid, e], by rw [hl.viscous, e], by rw [hl.total, e], h2, h3, h4⟩

-- the swept, tapered, twisted main wing of the aircraft `demo`, which carries winglets, may be cut through its ailerons
example : ∃ (w w' : String) (parent : Option String) (location side : String) (d : WingDims) (n k N : ℕ) (x : ℝ) (after : List PlaneOp),
    (side = "both" ∨ side = "left" ∨ side = "right") ∧ w ≠ "" ∧ w' ≠ "" ∧ w ≠ w' ∧ parent ≠ some w ∧ d.grid.getD 40 = n ∧ 0 < k ∧
    k < n ∧ x = (k : ℝ) / n ∧ N = (built "demo" none []).heap.length ∧ CutCalls N w w' after ∧
    demo = built "demo" none ([] ++ [.addWing w parent location side d] ++ after) ∧
    after.flatMap (PlaneOp.cut N w w' x) =
      [.addWing "Winglet" (some w') "tip" "both" { semispan := some 1, dihedral := some 80, isMain := some false, grid := some 7 },
       .addWing "Fin" none "tip" "right" { semispan := some 1, dihedral := some 90, isMain := some false, grid := some 5 },
       .controlSurface 0 { percentSpan := some (20 / 26, 36 / 26), percentChord := some (.single 0.25), mix := some { aileron := some 1 } },
       .controlSurface 1 { percentSpan := some (-6 / 14, 10 / 14), percentChord := some (.single 0.25), mix := some { aileron := some 1 } }] ∧
    ∃ g, mkGrid demo false = .ok g := by
  refine ⟨"Main", "Outer", none, "tip", "both", _, 40, 26, 0, 26 / 40, _, .inl rfl, by decide, by decide, by decide, by decide, rfl,
    by decide, by decide, by norm_num, rfl, ⟨?_, ?_⟩, rfl, ?_, demo_grid false⟩
  · intro nm parent location side d hm
    simp only [List.mem_cons, PlaneOp.addWing.injEq, List.not_mem_nil, or_false, reduceCtorEq] at hm
    rcases hm with ⟨rfl, rfl, _⟩ | ⟨rfl, rfl, _⟩ <;> decide
  · intro nm e q hm
    simp at hm
  · simp [PlaneOp.cut, CtrlSurfProps.onPiece]
    norm_num

end Verif
