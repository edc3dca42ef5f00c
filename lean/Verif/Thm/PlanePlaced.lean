import Verif.Thm.PlaneSimilar
import Verif.Thm.LLKernel

/-!
# The position given to the aircraft (C96)
-/

namespace Verif
open V3

/-- Property C96 for one aircraft: built at two positions that differ by `δ`, with the same calls, it has the same
inviscid, viscous and total forces and moments in every solve without rotation rates. -/
def SamePlaced (nm : String) (pos : Option V3) (ops : List PlaneOp) (δ : V3) (cosine : Bool) : Prop :=
  ∀ g g' : Grid, mkGrid (built nm pos ops) cosine = .ok g →
    mkGrid (built nm (some (pos.getD 0 + δ)) ops) cosine = .ok g' →
    ∃ e : g.data.length = g'.data.length, ∀ (d : AeroDict (Fin g.data.length)) (c : Option CtrlDict),
      d.truthy = true → d.roll = none → d.pitch = none → d.yaw = none →
      Outcome (fun R R' => R'.inviscid = R.inviscid ∧ R'.viscous = R.viscous ∧ R'.total = R.total)
        (llSolve (g.geom (built nm pos ops).cg) (LLState.init _) "linear" (some d) c).1
        (llSolve (g'.geom (built nm (some (pos.getD 0 + δ)) ops).cg) (LLState.init _) "linear"
          (some (d.reindex (finCongr e))) c).1

theorem moved_cg (nm : String) (pos : Option V3) (ops : List PlaneOp) (δ : V3) :
    (built nm (some (pos.getD 0 + δ)) ops).cg = (built nm pos ops).cg := by
  rw [built_moved]; rfl

theorem Outcome.trans {α β γ ε : Type*} {P : α → β → Prop} {Q : β → γ → Prop} {S : α → γ → Prop} {r : Except ε α}
    {r' : Except ε β} {r'' : Except ε γ} (h : Outcome P r r') (h' : Outcome Q r' r'')
    (hS : ∀ a b c, P a b → Q b c → S a c) : Outcome S r r'' := by
  cases r <;> cases r' <;> cases r'' <;> simp_all [Outcome]
  exact hS _ _ _ h h'

/-- **C96** (partial). Forces, lift, drag and side force, section angles and coefficients do not depend on where the
aircraft is.  The moments change by `δ × F`: the wings are displaced, the CG is not. -/
theorem C96_placed_partial (nm : String) (pos : Option V3) (ops : List PlaneOp) (hc : ParentsAdded ops) (δ : V3)
    (cosine : Bool) (g g' : Grid) (hg : mkGrid (built nm pos ops) cosine = .ok g)
    (hg' : mkGrid (built nm (some (pos.getD 0 + δ)) ops) cosine = .ok g') :
    ∃ e : g.data.length = g'.data.length, ∀ (d : AeroDict (Fin g.data.length)) (c : Option CtrlDict),
      d.truthy = true → d.roll = none → d.pitch = none → d.yaw = none →
      Outcome (fun R R' => SameSections (finCongr e) R R' ∧
          (R'.inviscid.FL, R'.inviscid.FD, R'.inviscid.FS) = (R.inviscid.FL, R.inviscid.FD, R.inviscid.FS) ∧
          (R'.viscous.FL, R'.viscous.FD, R'.viscous.FS) = (R.viscous.FL, R.viscous.FD, R.viscous.FS) ∧
          (R'.total.FL, R'.total.FD, R'.total.FS) = (R.total.FL, R.total.FD, R.total.FS) ∧
          R'.inviscid.F = R.inviscid.F ∧ R'.viscous.F = R.viscous.F ∧ R'.total.F = R.total.F ∧
          R'.inviscid.M = R.inviscid.M + cross δ R.inviscid.F ∧
          R'.viscous.M = R.viscous.M + cross δ R.viscous.F ∧
          R'.total.M = R.total.M + cross δ R.total.F)
        (llSolve (g.geom (built nm pos ops).cg) (LLState.init _) "linear" (some d) c).1
        (llSolve (g'.geom (built nm (some (pos.getD 0 + δ)) ops).cg) (LLState.init _) "linear"
          (some (d.reindex (finCongr e))) c).1 := by
  obtain ⟨_, _, e, h⟩ := (C30_plane nm pos ops hc δ cosine).2 g g' hg hg'
  refine ⟨e, fun d c hd h1 h2 h3 => ?_⟩
  rw [moved_cg]
  have hA := h (built nm pos ops).cg d c hd
  have hB := C28_cg_transfer (g'.geom ((built nm pos ops).cg + δ)) (LLState.init _) "linear" (some (d.reindex (finCongr e))) c
    (-δ) (by rintro d' ⟨⟩; simp [AeroDict.reindex, h1, h2, h3])
  have hG : ({ g'.geom ((built nm pos ops).cg + δ) with cg := (g'.geom ((built nm pos ops).cg + δ)).cg + -δ } : LLGeom _) =
      g'.geom (built nm pos ops).cg := by
    unfold Grid.geom
    congr 1
    simp
  rw [hG] at hB
  refine hA.trans hB ?_
  rintro R R₁ R' ⟨hl, hs, _⟩ ⟨_, _, _, hs', i1, i2, i3, f1, f2, f3, m1, m2, m3⟩
  have hsc : ∀ l : Loads, l.scale 1 1 = l := fun l => by simp [Loads.scale]
  have e1 : R₁.inviscid = R.inviscid := by rw [hl.inviscid, hsc]
  have e2 : R₁.viscous = R.viscous := by rw [hl.viscous, hsc]
  have e3 : R₁.total = R.total := by rw [hl.total, hsc]
  rw [e1] at i1 f1 m1
  rw [e2] at i2 f2 m2
  rw [e3] at i3 f3 m3
  have hx : ∀ F : V3, cross (-δ) F = -cross δ F := fun F => by ext <;> simp [cross] <;> ring
  refine ⟨⟨fun i => ?_, fun i => ?_, fun i => ?_, fun i => ?_⟩, i1, i2, i3, f1, f2, f3, ?_, ?_, ?_⟩
  · rw [← hs.alpha, ← hs'.alpha]; rfl
  · rw [← hs.cl, ← hs'.cl]; rfl
  · rw [← hs.cd, ← hs'.cd]; rfl
  · rw [← hs.cm, ← hs'.cm]; rfl
  · rw [m1, hx, sub_neg_eq_add]
  · rw [m2, hx, sub_neg_eq_add]
  · rw [m3, hx, sub_neg_eq_add]

/-- **C96** (negation). The same calls for an aircraft placed one length forward give another pitching moment. -/
theorem C96_refuted : ¬ ∀ (nm : String) (pos : Option V3) (ops : List PlaneOp) (δ : V3) (cosine : Bool),
    ParentsAdded ops → SamePlaced nm pos ops δ cosine := by
  intro hall
  have hs := hall "unit" none unitOps ⟨1, 0, 0⟩ true unit_connected
  obtain ⟨g, hg, hsol⟩ := unit_nontrivial true
  obtain ⟨g', hg'⟩ := (C30_plane "unit" none unitOps unit_connected ⟨1, 0, 0⟩ true).1.1 ⟨g, hg⟩
  obtain ⟨e, hsame⟩ := hs g g' hg hg'
  obtain ⟨e', hpart⟩ := C96_placed_partial "unit" none unitOps unit_connected ⟨1, 0, 0⟩ true g g' hg hg'
  have h1 := hsame (unitAero _) (some exCtrl) rfl rfl rfl rfl
  have h2 := hpart (unitAero _) (some exCtrl) rfl rfl rfl rfl
  obtain ⟨R, hR, hF⟩ := hsol (LLState.init _)
  change (llSolve (g.geom (built "unit" none unitOps).cg) _ _ _ _).1 = _ at hR
  rw [hR] at h1 h2
  generalize (llSolve (g'.geom _) _ _ _ _).1 = r at h1 h2
  cases r with
  | error e => exact h1
  | ok R' =>
    have hM := h2.2.2.2.2.2.2.2.1
    rw [h1.1] at hM
    have := congrArg V3.y hM
    simp [cross] at this
    exact hF this

end Verif
