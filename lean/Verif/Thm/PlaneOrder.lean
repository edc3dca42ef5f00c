import Verif.Lemmas.PlaneOrder
import Verif.Lemmas.ListImage
import Verif.Thm.LLScaling
import Verif.Thm.GridExists

/-!
# The order of `add_wing` calls (C29)
-/

namespace Verif
open V3

/-- **C29** (aircraft). Exchange two consecutive `add_wing` calls of differently named wings, neither of which is
connected to the other; later calls of `airfoil` and `control_surface` act on the same wings as before (`k` and `k + 1`
are the identities of the two wing objects).  The second aircraft can be discretised iff the first one can, with the
same reference area, and every solve gives the same loads; `σ` tells where each section has gone. -/
theorem C29_plane (nm : String) (pos : Option V3) (before after : List PlaneOp)
    (n₁ n₂ : String) (q₁ q₂ : Option String) (l₁ l₂ s₁ s₂ : String) (d₁ d₂ : WingDims)
    (h₁ : s₁ = "both" ∨ s₁ = "left" ∨ s₁ = "right") (h₂ : s₂ = "both" ∨ s₂ = "left" ∨ s₂ = "right")
    (hne : n₁ ≠ n₂) (hq₁ : q₁ ≠ some n₂) (hq₂ : q₂ ≠ some n₁) (p p' : Plane) (k : ℕ)
    (hk : k = (built nm pos before).heap.length)
    (hp : p = built nm pos (before ++ [.addWing n₁ q₁ l₁ s₁ d₁, .addWing n₂ q₂ l₂ s₂ d₂] ++ after))
    (hp' : p' = built nm pos (before ++ [.addWing n₂ q₂ l₂ s₂ d₂, .addWing n₁ q₁ l₁ s₁ d₁] ++
      after.map (PlaneOp.onObjects (Equiv.swap k (k + 1)))))
    (cosine : Bool) :
    ((∃ g, mkGrid p cosine = .ok g) ↔ ∃ g', mkGrid p' cosine = .ok g') ∧
    ∀ g g' : Grid, mkGrid p cosine = .ok g → mkGrid p' cosine = .ok g' →
      g'.refArea = g.refArea ∧
      ∃ σ : Fin g.data.length ≃ Fin g'.data.length, (∀ i, g'.data.get (σ i) = g.data.get i) ∧
        ∀ (d : AeroDict (Fin g.data.length)) (c : Option CtrlDict), d.truthy = true →
        Outcome (fun R R' => R'.inviscid = R.inviscid ∧ R'.viscous = R.viscous ∧ R'.total = R.total ∧
            SameSections σ R R' ∧ (∀ i, R'.gamma (σ i) = R.gamma i) ∧ R'.LD = R.LD)
          (llSolve (g.geom p.cg) (LLState.init _) "linear" (some d) c).1
          (llSolve (g'.geom p'.cg) (LLState.init _) "linear" (some (d.reindex σ)) c).1 := by
  have hw : ∀ (n s : String) (d : WingDims), s = "both" ∨ s = "left" ∨ s = "right" → ∃ w, mkWing n s d = .ok w := by
    rintro n s d (rfl | rfl | rfl) <;> exact ⟨_, rfl⟩
  obtain ⟨w₁, hw₁⟩ := hw n₁ s₁ d₁ h₁
  obtain ⟨w₂, hw₂⟩ := hw n₂ s₂ d₂ h₂
  have hren : PlaneRen (Equiv.swap k (k + 1)) p p' := by
    have := (swap_ren (q₁ := q₁) (q₂ := q₂) (l₁ := l₁) (l₂ := l₂) (built_inv nm pos before) (nodup_built nm pos before)
      hw₁ hw₂ hne hq₁ hq₂).runOps after
    rw [← hk] at this
    rw [hp, hp']
    simpa [built, runOps, List.foldl_append] using this
  clear hp hp'
  refine ⟨hren.exists_iff cosine, fun g g' hg hg' => ?_⟩
  obtain ⟨hperm, href⟩ := hren.grids hg hg'
  obtain ⟨σ, hσ⟩ := perm_equiv hperm
  refine ⟨href, σ, hσ, fun d c hd => ?_⟩
  have hgeo : g'.geom p'.cg = (g.geom p.cg).reindex σ := by
    unfold LLGeom.reindex Grid.geom
    simp only [hren.cg, LLGeom.mk.injEq, true_and]
    funext j
    have := hσ (σ.symm j)
    rw [Equiv.apply_symm_apply] at this
    rw [this]
  rw [hgeo]
  have h := C29_order (g.geom p.cg) σ d c hd
  exact h.mono fun R R' _ _ hi => by
    obtain ⟨hl, h2, h3, h4⟩ := hi
    have e : ∀ l : Loads, l.scale 1 1 = l := fun l => by ext <;> simp [Loads.scale]
    exact ⟨by rw [hl.inviscid, e], by rw [hl.viscous, e], by rw [hl.total, e], h2, h3, h4⟩

-- the winglets and the fin of the aircraft `demo`, which can be discretised, may be exchanged
example (c : Bool) : ∃ (n₁ n₂ : String) (q₁ q₂ : Option String) (l₁ l₂ s₁ s₂ : String) (d₁ d₂ : WingDims)
    (before after : List PlaneOp),
    (s₁ = "both" ∨ s₁ = "left" ∨ s₁ = "right") ∧ (s₂ = "both" ∨ s₂ = "left" ∨ s₂ = "right") ∧ n₁ ≠ n₂ ∧
    q₁ ≠ some n₂ ∧ q₂ ≠ some n₁ ∧ before ≠ [] ∧ after ≠ [] ∧
    demo = built "demo" none (before ++ [.addWing n₁ q₁ l₁ s₁ d₁, .addWing n₂ q₂ l₂ s₂ d₂] ++ after) ∧
    ∃ g, mkGrid demo c = .ok g :=
  ⟨"Winglet", "Fin", some "Main", none, "tip", "tip", "both", "right", _, _, [_], [_], by decide, by decide, by decide,
    by decide, by decide, by simp, by simp, rfl, demo_grid c⟩

end Verif
