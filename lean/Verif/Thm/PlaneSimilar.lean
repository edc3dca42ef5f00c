import Verif.Lemmas.GridMap
import Verif.Lemmas.PlaneScale
import Verif.Lemmas.PlaneMove
import Verif.Thm.LLScaling
import Verif.Thm.WingConnect
import Verif.Examples.UnitPlane

/-!
# Enlarging and displacing an aircraft built through the API (C30, C31)

The theorems of `LLScaling.lean` compare section lists.  These compare the *calls* that build two aircraft: the grids
exist for both or for neither, have the same number of sections, and the solutions are related.
-/

namespace Verif
open V3

theorem enlarge_segments (k : ℝ) (p : Plane) : (p.enlarge k).segments = p.segments.map (Seg.enlarge k) := by
  rw [segments_eq, segments_eq]
  unfold Plane.wingList
  simp only [Plane.enlarge, List.getElem?_map]
  generalize p.wings = ws
  induction ws with
  | nil => rfl
  | cons kv t ih =>
    cases h : p.heap[kv.2]? with
    | none => simp [h, ih]
    | some w =>
      simp only [List.filterMap_cons, h, Option.map_some, List.flatMap_cons, List.map_append, ih]
      congr 1
      cases w <;> rfl

theorem enlarge_gridMap {k : ℝ} (hk : 0 < k) (p : Plane) (c : Bool) :
    GridMap p (p.enlarge k) c (Seg.enlarge k) (GridSec.enlarge k) (k ^ 2) where
  segments := enlarge_segments k p
  data s _ := segData_enlarge hk p c s
  ic2 g := withIc2_enlarge hk g
  area _ := rfl
  isMain _ := rfl
  n _ := rfl

theorem moved_gridMap (δ : V3) {p : Plane} (hp : AllConnected p) (c : Bool) :
    GridMap p (p.moved δ) c id (GridSec.moved δ) 1 where
  segments := by rw [List.map_id]; rfl
  data s hs := by
    obtain ⟨b, w, hb, hsw⟩ := mem_plane_segments hs
    exact segData_moved δ hp c s (hp b w s hb hsw)
  ic2 g := withIc2_moved δ g
  area _ := (one_mul _).symm
  isMain _ := rfl
  n _ := rfl

/-- sections of two grids that correspond entry by entry -/
private theorem geom_get {g g' : Grid} {F : GridSec → GridSec} (h : g'.data = g.data.map F)
    (e : g.data.length = g'.data.length) (i : Fin g.data.length) : g'.data.get (finCongr e i) = F (g.data.get i) := by
  simp [h]

/-- **C31** (aircraft). Build an aircraft twice, the second time with all lengths in all calls multiplied by `k > 0`.  The
second one can be discretised iff the first one can; its reference area is `k²` times as large; it has the same number
of sections; and a solve with the rotation rates divided by `k` gives `k²` times the forces, `k³` times the moments and
the same section angles and coefficients (or fails in the same way). -/
theorem C31_plane (nm : String) (pos : Option V3) (ops : List PlaneOp) (k : ℝ) (hk : 0 < k) (cosine : Bool) :
    ((∃ g, mkGrid (built nm pos ops) cosine = .ok g) ↔
      ∃ g', mkGrid (built nm (pos.map (k • ·)) (ops.map (PlaneOp.enlarge k))) cosine = .ok g') ∧
    ∀ g g' : Grid, mkGrid (built nm pos ops) cosine = .ok g →
      mkGrid (built nm (pos.map (k • ·)) (ops.map (PlaneOp.enlarge k))) cosine = .ok g' →
      g'.slices = g.slices ∧ g'.refArea = k ^ 2 * g.refArea ∧
      ∃ e : g.data.length = g'.data.length, ∀ (d : AeroDict (Fin g.data.length)) (c : Option CtrlDict), d.truthy = true →
        Outcome (fun R R' => LoadsScaled (k ^ 2) (k ^ 3) R R' ∧ SameSections (finCongr e) R R' ∧ R'.LD = R.LD)
          (llSolve (g.geom (built nm pos ops).cg) (LLState.init _) "linear" (some d) c).1
          (llSolve (g'.geom (built nm (pos.map (k • ·)) (ops.map (PlaneOp.enlarge k))).cg) (LLState.init _) "linear"
            (some ((d.divRates k).reindex (finCongr e))) c).1 := by
  rw [built_enlarge hk.ne']
  generalize built nm pos ops = p
  have hm := enlarge_gridMap hk p cosine
  refine ⟨hm.exists_iff, fun g g' hg hg' => ?_⟩
  obtain ⟨h1, h2, h3⟩ := hm.grids hg hg'
  have e : g.data.length = g'.data.length := by rw [h1, List.length_map]
  refine ⟨h2, h3, e, fun d c hd => ?_⟩
  have hsec := geom_get h1 e
  let σ := finCongr e
  let T := idSim k hk 0 1 one_pos 1
  have hk' := hk.ne'
  have hS : ∀ i, (g'.geom (p.enlarge k).cg).S (σ i) = ((g.geom p.cg).S i).scaleLength k := by
    intro i
    show (g'.data.get (finCongr e i)).toSection = _
    rw [hsec i]
    rfl
  have hcg : (g'.geom (p.enlarge k).cg).cg = k • (g.geom p.cg).cg := rfl
  have h := llSolve_image T σ (G := g.geom p.cg) (G' := g'.geom (p.enlarge k).cg) (d := d)
    (d' := (d.divRates k).reindex σ) (c := c) (c' := c) (τ := 1) (by simp [T]) (by simp)
    (fun i => by rw [hS]; constructor <;> simp [T, Section.scaleLength])
    (by rw [hcg]; simp [T]) hd (by rw [truthy_reindex, truthy_divRates, hd])
    (arrOf_image T σ (by simp [AeroDict.hasRates, AeroDict.divRates, AeroDict.reindex])
      (fun i => by
        rw [hS, hcg]
        simp only [AeroDict.divRates, AeroDict.reindex, getD_map_div, T, idSim_Q, idSim_spd, Section.scaleLength]
        ext <;> simp <;> field_simp)
      (by simp [T, AeroDict.divRates, AeroDict.reindex]) (fun V => by simp [T, AeroDict.divRates, AeroDict.reindex])
      (fun _ => by simp [T, AeroDict.divRates, AeroDict.reindex])
      (by simp [T, AeroDict.divRates, AeroDict.reindex]))
    (LLState.init _) (LLState.init _)
    (by
      unfold processCtrl
      cases c with
      | none => exact ⟨fun i => rfl, fun i => rfl⟩
      | some c =>
        simp only
        split
        · constructor <;> intro i <;> simp only [hS] <;> rfl
        · exact ⟨fun i => rfl, fun i => rfl⟩)
  refine h.mono fun R R' _ _ hi => ⟨?_, hi.sameSections, ?_⟩
  · simpa [T] using hi.loadsScaled (fun a => by simp [T]) (by simp [T])
  · have := hi.LD (by simp [T])
    simpa [T] using this

-- the aircraft `unitPlane` has a grid, and its solve succeeds with a non-zero force
example (c : Bool) : ∃ g, mkGrid (built "unit" none unitOps) c = .ok g ∧ ∀ st : LLState (Fin g.data.length),
    ∃ R, (llSolve (g.geom unitPlane.cg) st "linear" (some (unitAero _)) (some exCtrl)).1 = .ok R ∧ R.inviscid.FZ ≠ 0 :=
  unit_nontrivial c

/-- **C30** (aircraft). Build the same aircraft at two positions that differ by `δ`, where every wing to be connected to exists.
The second one can be discretised iff the first one can, with the same reference area and number of sections; and with
the CG displaced by `δ` as well every solve gives the same loads, circulation, section angles and coefficients. -/
theorem C30_plane (nm : String) (pos : Option V3) (ops : List PlaneOp) (hc : ParentsAdded ops) (δ : V3)
    (cosine : Bool) :
    ((∃ g, mkGrid (built nm pos ops) cosine = .ok g) ↔
      ∃ g', mkGrid (built nm (some (pos.getD 0 + δ)) ops) cosine = .ok g') ∧
    ∀ g g' : Grid, mkGrid (built nm pos ops) cosine = .ok g →
      mkGrid (built nm (some (pos.getD 0 + δ)) ops) cosine = .ok g' →
      g'.slices = g.slices ∧ g'.refArea = g.refArea ∧
      ∃ e : g.data.length = g'.data.length, ∀ (cg : V3) (d : AeroDict (Fin g.data.length)) (c : Option CtrlDict),
        d.truthy = true →
        Outcome (fun R R' => LoadsScaled 1 1 R R' ∧ SameSections (finCongr e) R R' ∧
            (∀ i, R'.gamma (finCongr e i) = R.gamma i) ∧ R'.LD = R.LD)
          (llSolve (g.geom cg) (LLState.init _) "linear" (some d) c).1
          (llSolve (g'.geom (cg + δ)) (LLState.init _) "linear" (some (d.reindex (finCongr e))) c).1 := by
  have hcon := allConnected_of (nm := nm) (pos := pos) hc
  rw [built_moved]
  generalize built nm pos ops = p at *
  have hm := moved_gridMap δ hcon cosine
  refine ⟨hm.exists_iff, fun g g' hg hg' => ?_⟩
  obtain ⟨h1, h2, h3⟩ := hm.grids hg hg'
  have e : g.data.length = g'.data.length := by rw [h1, List.length_map]
  refine ⟨h2, by rw [h3, one_mul], e, fun cg d c hd => ?_⟩
  have hsec := geom_get h1 e
  let σ := finCongr e
  let T := idSim 1 one_pos δ 1 one_pos 1
  have hS : ∀ i, (g'.geom (cg + δ)).S (σ i) = ((g.geom cg).S i).translate δ := by
    intro i
    show (g'.data.get (finCongr e i)).toSection = _
    rw [hsec i]
    rfl
  have hcg : (g'.geom (cg + δ)).cg = (g.geom cg).cg + δ := rfl
  have h := llSolve_image T σ (G := g.geom cg) (G' := g'.geom (cg + δ)) (d := d)
    (d' := d.reindex σ) (c := c) (c' := c) (τ := 1) (by simp [T]) (by simp)
    (fun i => by rw [hS]; constructor <;> simp [T, Section.translate])
    (by rw [hcg]; simp [T]) hd (by rw [truthy_reindex, hd])
    (arrOf_image T σ (by simp [AeroDict.hasRates, AeroDict.reindex])
      (fun i => by
        rw [hS, hcg]
        simp [AeroDict.reindex, T, Section.translate])
      (by simp [T, AeroDict.reindex]) (fun V => by simp [T, AeroDict.reindex])
      (fun _ => by simp [T, AeroDict.reindex]) (by simp [T, AeroDict.reindex]))
    (LLState.init _) (LLState.init _)
    (by
      unfold processCtrl
      cases c with
      | none => exact ⟨fun i => rfl, fun i => rfl⟩
      | some c =>
        simp only
        split
        · constructor <;> intro i <;> simp only [hS] <;> rfl
        · exact ⟨fun i => rfl, fun i => rfl⟩)
  refine h.mono fun R R' _ _ hi => ⟨?_, hi.sameSections, ?_, ?_⟩
  · simpa [T] using hi.loadsScaled (fun a => by simp [T]) (by simp [T])
  · intro i
    have := hi.gamma i
    simp only [T, idSim_spd, idSim_len, one_mul] at this
    exact this
  · have := hi.LD (by simp [T])
    simpa [T] using this

theorem unit_connected : ParentsAdded unitOps := by
  intro pre name parent location side d post h
  have : PlaneOp.addWing name (some parent) location side d ∈ unitOps := by rw [h]; simp
  simp [unitOps] at this

-- the aircraft `unitPlane` meets the hypothesis, has a grid, and its solve succeeds with a non-zero force
example (c : Bool) : ParentsAdded unitOps ∧ ∃ g, mkGrid (built "unit" none unitOps) c = .ok g ∧
    ∀ st : LLState (Fin g.data.length), ∃ R,
      (llSolve (g.geom unitPlane.cg) st "linear" (some (unitAero _)) (some exCtrl)).1 = .ok R ∧ R.inviscid.FZ ≠ 0 :=
  ⟨unit_connected, unit_nontrivial c⟩

end Verif
