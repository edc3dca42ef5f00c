import Verif.Spec.PlaneImage
import Verif.Lemmas.GridGeom
import Verif.Lemmas.LLInputs

/-! Helper lemmas: a displaced plane has the displaced grid. -/

namespace Verif
open V3

def Plane.moved (δ : V3) (p : Plane) : Plane := { p with position := some (p.getPosition + δ) }

theorem moved_run (δ : V3) (p : Plane) (op : PlaneOp) : op.run (p.moved δ) = (op.run p).moved δ := by
  cases op with
  | addWing name parent location side d =>
    simp only [PlaneOp.run, addWing_eq]
    cases hw : mkWing name side d with
    | error e => rfl
    | ok w =>
      simp only [Plane.moved]
      cases ht : targetOf (dictSet p.wings name p.heap.length) parent <;> rfl
  | airfoil id name e props =>
    simp only [PlaneOp.run, Plane.wingAirfoil]
    cases mkAirfoil name props <;> rfl
  | controlSurface id props =>
    simp only [PlaneOp.run, Plane.wingCtrl]
    cases mkCtrlSurf props <;> rfl
  | addProp name d => rfl
  | propAirfoil name af props =>
    simp only [PlaneOp.run, Plane.propAirfoil]
    cases mkAirfoil af props with
    | error er => rfl
    | ok a =>
      simp only [Plane.moved]
      cases dictGet p.props name <;> rfl
  | cgLocation x y z => rfl
  | setRefLengths a b => rfl

theorem moved_runOps (δ : V3) (ops : List PlaneOp) : ∀ p : Plane, runOps (p.moved δ) ops = (runOps p ops).moved δ := by
  induction ops with
  | nil => intro p; rfl
  | cons op t ih =>
    intro p
    simp only [runOps, List.foldl_cons] at ih ⊢
    rw [moved_run, ih]

theorem built_moved (δ : V3) (nm : String) (pos : Option V3) (ops : List PlaneOp) :
    built nm (some (pos.getD 0 + δ)) ops = (built nm pos ops).moved δ := by
  unfold built
  rw [← moved_runOps]
  rfl

theorem segPos_moved (δ : V3) {p : Plane} (hp : AllConnected p) : ∀ (f : ℕ) (s : Seg) (t : TipAt), s.parent ≠ .none →
    segPos (p.moved δ) f s t = movePos δ (segPos p f s t) := by
  have hadd : ∀ (o : Option V3) (v : V3), addOff o (v + δ) = movePos δ (addOff o v) := by
    intro o v
    cases o with
    | none => rfl
    | some o => simp [addOff, movePos, add_assoc]
  have hconn : ∀ s, connTarget (p.moved δ) s = connTarget p s := fun _ => rfl
  intro f
  induction f with
  | zero => intro s t _; rfl
  | succ f ih =>
    intro s t hs
    rw [segPos_succ, segPos_succ, hconn]
    cases hc : connTarget p s with
    | error e => rfl
    | ok o =>
      cases o with
      | none =>
        simp only
        have : basePos (p.moved δ) s = basePos p s + δ := by
          unfold basePos
          cases hpar : s.parent with
          | none => exact absurd hpar hs
          | plane => simp [Plane.getPosition, Plane.moved]
          | wing id =>
            exfalso
            unfold connTarget at hc
            rw [hpar] at hc
            simp only at hc
            split at hc
            · cases hc
            · split at hc
              · cases hc
              · split at hc <;> cases hc
              · split at hc <;> cases hc
        rw [this, hadd]
      | some q =>
        simp only
        obtain ⟨q, t'⟩ := q
        obtain ⟨id, w, _, hw, hq⟩ := connTarget_mem hc
        simp only
        rw [ih q t' (hp id w q hw hq.1)]
        cases segPos p f q t' with
        | error e => rfl
        | ok v => simp only [movePos]; rw [hadd]; rfl

theorem segPosition_moved (δ : V3) {p : Plane} (hp : AllConnected p) (s : Seg) (t : TipAt) (hs : s.parent ≠ .none) :
    (p.moved δ).segPosition s t = movePos δ (p.segPosition s t) := segPos_moved δ hp _ s t hs

def GridSec.moved (δ : V3) (g : GridSec) : GridSec := { g with toSection := g.toSection.translate δ }

theorem segPoint_moved (δ l r : V3) (s : ℝ) : segPoint (l + δ) (r + δ) s = segPoint l r s + δ := by
  unfold segPoint unitS
  rw [add_sub_add_right_eq_sub]
  ext <;> simp <;> ring

theorem segSection_moved (δ : V3) (c : Bool) (s : Seg) (l r : V3) (i : ℕ) :
    segSection c s (l + δ) (r + δ) i = (segSection c s l r i).moved δ := by
  unfold segSection
  simp only [segPoint_moved, GridSec.moved, Section.translate, add_sub_add_right_eq_sub]

theorem withIc2_moved (δ : V3) (g : GridSec) : (g.moved δ).withIc2 = g.withIc2.moved δ := by
  unfold GridSec.withIc2 GridSec.moved Section.translate
  simp only [add_sub_add_right_eq_sub]

theorem segData_moved (δ : V3) {p : Plane} (hp : AllConnected p) (c : Bool) (s : Seg) (hs : s.parent ≠ .none) :
    segData (p.moved δ) c s = (segData p c s).map (·.map (GridSec.moved δ)) := by
  unfold segData
  simp only [segPosition_moved δ hp _ _ hs]
  by_cases h0 : c = true ∧ s.n = 0
  · simp only [h0, and_self, if_true]; rfl
  simp only [h0, if_false]
  cases p.segPosition s .leftTip with
  | error e => rfl
  | ok l =>
    simp only [movePos]
    cases p.segPosition s .rightTip with
    | error e => rfl
    | ok r =>
      simp only [add_sub_add_right_eq_sub]
      split_ifs
      · rfl
      · rfl
      · rfl
      · simp only [Except.map, Except.ok.injEq, List.map_map]
        apply List.map_congr_left
        intro i _
        exact segSection_moved δ c s l r i

end Verif
