import Verif.Lemmas.OneMore
import Verif.Lemmas.NoLift
import Verif.Lemmas.LLApi
import Verif.Thm.StlCall
import Verif.Thm.StraightWing

/-! # C145: a surface whose airfoils have no lift slope -/

namespace Verif
open V3

/-- a solve with additional sections that have no lift slope -/
theorem llSolve_flat {ι ι' : Type*} [Fintype ι] [DecidableEq ι] [Fintype ι'] [DecidableEq ι'] {f : ι → ι'} (hf : Function.Injective f)
    {G : LLGeom ι} {G' : LLGeom ι'} (hcg : G'.cg = G.cg) (hS : ∀ i, G'.S (f i) = G.S i) (h0 : ∀ j ∈ added f, (G'.S j).Flat)
    {d : AeroDict ι'} (hd : d.truthy = true) (hw : d.localState = none ∨ d.Vmag ≠ none) {c : Option CtrlDict} {R' : Sol ι'}
    (h : (llSolve G' (LLState.init ι') "linear" (some d) c).1 = .ok R') :
    ∃ R, (llSolve G (LLState.init ι) "linear" (some (d.seenBy f)) c).1 = .ok R ∧ OnlyDrag G.cg G'.S f R R' := by
  have hd2 : (d.seenBy f).truthy = true := by
    rw [← hd]; unfold AeroDict.truthy AeroDict.seenBy
    simp
  rw [llSolve_aero _ _ _ _ hd] at h
  rw [llSolve_aero _ _ _ _ hd2]
  have hC : (processCtrl G' (LLState.init ι') c).ctrl.sub f = (processCtrl G (LLState.init ι) c).ctrl := by
    unfold processCtrl
    cases c with
    | none => rfl
    | some c =>
      simp only
      split
      · simp only [Ctrl.sub, hS]
      · rfl
  have hrot : ∀ v v2, v2 = v.map (fun v i => v (f i)) → rotArr G (d.seenBy f) v2 = (rotArr G' d v).map (fun v i => v (f i)) := by
    intro v v2 hv
    have hh : (d.seenBy f).hasRates = d.hasRates := rfl
    unfold rotArr
    rw [hh, hv]
    split
    · cases v with
      | none => rfl
      | some v =>
        simp only [Option.map_some, hS, hcg]
        rfl
    · rfl
  have harr : ∀ a', arrOf G' d = .ok a' → arrOf G (d.seenBy f) = .ok ⟨a'.v.map (fun v i => v (f i)), a'.u, fun i => a'.rho (f i)⟩ := by
    intro a' ha
    unfold arrOf at ha ⊢
    cases hl : d.localState with
    | none =>
      rw [hl] at ha
      have hl2 : (d.seenBy f).localState = none := by simp [AeroDict.seenBy, hl]
      rw [hl2]
      have e1 : (d.seenBy f).Vmag = d.Vmag := rfl
      have e2 : (d.seenBy f).rho = d.rho := rfl
      have e3 : (d.seenBy f).alpha = d.alpha := rfl
      have e4 : (d.seenBy f).beta = d.beta := rfl
      rw [e1, e2, e3, e4]
      cases hV : d.Vmag with
      | none => rw [hV] at ha; cases ha
      | some V =>
        cases hr : d.rho with
        | none => rw [hV, hr] at ha; cases ha
        | some r =>
          rw [hV, hr] at ha
          cases ha
          simp only
          rw [hrot ((freestream V (d.alpha.getD 0) (d.beta.getD 0)).map fun w _ => w) _ (by rw [Option.map_map]; rfl)]
    | some ls =>
      rw [hl] at ha
      have hl2 : (d.seenBy f).localState = some fun i => ls (f i) := by simp [AeroDict.seenBy, hl]
      rw [hl2]
      have e1 : (d.seenBy f).Vmag = d.Vmag := rfl
      have e3 : (d.seenBy f).alpha = d.alpha := rfl
      have e4 : (d.seenBy f).beta = d.beta := rfl
      rw [e1, e3, e4]
      cases hV : d.Vmag with
      | none => rw [hl, hV] at hw; simp at hw
      | some V =>
        rw [hV] at ha
        cases ha
        simp only
        rw [hrot (some fun i => (ls i).2) (some fun i => (ls (f i)).2) rfl]
  cases ha : arrOf G' d with
  | error e => rw [ha] at h; cases h
  | ok a' =>
    rw [ha] at h
    rw [harr a' ha]
    simp only [kern] at h ⊢
    cases hv : a'.v with
    | none => rw [hv] at h; cases h
    | some v =>
      cases hu : a'.u with
      | none => rw [hv, hu] at h; cases h
      | some u =>
        rw [hv, hu] at h
        simp only [Option.map_some] at h ⊢
        cases hs : solveLinear G'.cg G'.S ⟨v, u, a'.rho⟩ (processCtrl G' (LLState.init ι') c).ctrl with
        | error e => rw [hs] at h; cases h
        | ok R2 =>
          rw [hs] at h
          cases h
          rw [hcg] at hs
          obtain ⟨R, h1, h2⟩ := solveLinear_sub hf hS h0 hs
          refine ⟨R, ?_, h2⟩
          rw [hC] at h1
          have : (Flow.sub f ⟨v, u, a'.rho⟩ : Flow ι) = ⟨fun i => v (f i), u, fun i => a'.rho (f i)⟩ := rfl
          rw [this] at h1
          rw [h1]

theorem modify_last {α : Type*} (l : List α) (a : α) (f : α → α) : (l ++ [a]).modify l.length f = l ++ [f a] := by
  induction l with
  | nil => rfl
  | cons x t ih => simp [List.modify_succ_cons, ih]

theorem OneMore.edit {p p' : Plane} {W : Wing} (h : OneMore p p' W) {ops : List PlaneOp} (hops : OnlyWing p.heap.length ops) :
    ∃ W', OneMore p (runOps p' ops) W' := by
  induction ops generalizing p' W with
  | nil => exact ⟨W, h⟩
  | cons op t ih =>
    have step : ∃ W1, OneMore p (op.run p') W1 := by
      rcases hops op List.mem_cons_self with ⟨name, e, q, rfl⟩ | ⟨q, rfl⟩
      · simp only [PlaneOp.run, Plane.wingAirfoil]
        cases mkAirfoil name q with
        | error er => exact ⟨W, h⟩
        | ok a =>
          refine ⟨W.mapSegs (·.setAirfoil e a), ?_, h.wings, h.position, h.cg⟩
          simp only [h.heap]
          rw [modify_last]
      · simp only [PlaneOp.run, Plane.wingCtrl]
        cases mkCtrlSurf q with
        | error er => exact ⟨W, h⟩
        | ok a =>
          refine ⟨W.mapSegs fun s => { s with cs := a }, ?_, h.wings, h.position, h.cg⟩
          simp only [h.heap]
          rw [modify_last]
    obtain ⟨W1, h1⟩ := step
    obtain ⟨W2, h2⟩ := ih h1 fun o ho => hops o (List.mem_cons_of_mem _ ho)
    exact ⟨W2, h2⟩

theorem fresh_surface (nm : String) (pos : Option V3) (ops : List PlaneOp) (q : String)
    (h : ∀ n parent location side d, .addWing n parent location side d ∈ ops → n ≠ q) :
    q ∉ (built nm pos ops).wings.map (·.1) := by
  unfold built
  have : ∀ p : Plane, dictGet p.wings q = none → dictGet (Verif.runOps p ops).wings q = none := by
    induction ops with
    | nil => intro p h; exact h
    | cons op t ih =>
      intro p hq
      refine ih (fun a b c d e hm => h a b c d e (List.mem_cons_of_mem _ hm)) (op.run p) ?_
      cases op with
      | addWing name parent location side d =>
        have hne : q ≠ name := (h name parent location side d List.mem_cons_self).symm
        simp only [PlaneOp.run, addWing_eq]
        cases mkWing name side d with
        | error e => exact hq
        | ok w =>
          simp only
          cases targetOf (dictSet p.wings name p.heap.length) parent <;> rw [dictGet_dictSet, if_neg hne, hq]
      | airfoil id name e props =>
        simp only [PlaneOp.run, Plane.wingAirfoil]
        cases mkAirfoil name props <;> exact hq
      | controlSurface id props =>
        simp only [PlaneOp.run, Plane.wingCtrl]
        cases mkCtrlSurf props <;> exact hq
      | addProp name d => exact hq
      | propAirfoil name af props =>
        simp only [PlaneOp.run, Plane.propAirfoil]
        cases mkAirfoil af props with
        | error er => exact hq
        | ok a => simp only; cases dictGet p.props name <;> exact hq
      | cgLocation x y z => exact hq
      | setRefLengths a b => exact hq
  rw [mem_keys_iff, this _ (by simp [newPlane, dictGet])]
  simp

theorem oneMore_built (nm : String) (pos : Option V3) (calls more : List PlaneOp) (w : String) (parent : Option String)
    (location side : String) (d : WingDims) (hside : ValidSide side)
    (hfresh : ∀ n parent location side d, .addWing n parent location side d ∈ calls → n ≠ w)
    (hmore : OnlyWing (built nm pos calls).heap.length more) :
    ∃ W, OneMore (built nm pos calls) (built nm pos (calls ++ .addWing w parent location side d :: more)) W := by
  obtain ⟨w0, hw0⟩ : ∃ w0, mkWing w side d = .ok w0 := by
    rcases hside with rfl | rfl | rfl <;> exact ⟨_, rfl⟩
  obtain ⟨W, hW, -⟩ := addWing_run (built nm pos calls) w parent location side d hw0
  have e : built nm pos (calls ++ .addWing w parent location side d :: more) =
      runOps ((PlaneOp.addWing w parent location side d).run (built nm pos calls)) more := by
    simp [built, runOps, List.foldl_append]
  rw [e]
  refine OneMore.edit (W := W) ?_ hmore
  rw [hW]
  exact ⟨rfl, ⟨w, dictSet_append _ _ _ (fresh_surface nm pos calls w hfresh)⟩, rfl, rfl⟩

/-- **C145**. An aircraft `p` is given one more surface, a wing `w` whose airfoils have no lift slope, connected anywhere, in any shape, with
any control surface: `p'`.  If `p'` can be discretised, so can `p`, and the sections of `p` are the first sections of `p'`.  Whenever `p'`
can be solved, so can `p` in the same flight condition (if wind is given per section, together with `V_mag`) and with the same
controls, and the surface has its drag and its pitching couple and changes nothing else (`OnlyDrag`): every other section keeps its
circulation, coefficients and loads. -/
theorem C145_no_lift (nm : String) (pos : Option V3) (calls more : List PlaneOp) (w : String) (parent : Option String)
    (location side : String) (d : WingDims) (hside : ValidSide side)
    (hfresh : ∀ n parent location side d, .addWing n parent location side d ∈ calls → n ≠ w)
    (p p' : Plane) (hp : p = built nm pos calls) (hp' : p' = built nm pos (calls ++ .addWing w parent location side d :: more))
    (hmore : OnlyWing p.heap.length more) (hflat : NoLiftSlope p' p.heap.length) (cosine : Bool) (g' : Grid)
    (hg' : mkGrid p' cosine = .ok g') :
    ∃ g, mkGrid p cosine = .ok g ∧ ∃ h : g.data.length ≤ g'.data.length, (∀ i, g'.data.get (Fin.castLE h i) = g.data.get i) ∧
      ∀ (a : AeroDict (Fin g'.data.length)) (c : Option CtrlDict) (R' : Sol (Fin g'.data.length)), a.truthy = true →
        (a.localState = none ∨ a.Vmag ≠ none) → (llSolve (g'.geom p'.cg) (LLState.init _) "linear" (some a) c).1 = .ok R' →
        ∃ R, (llSolve (g.geom p.cg) (LLState.init _) "linear" (some (a.seenBy (Fin.castLE h))) c).1 = .ok R ∧
          OnlyDrag p.cg (fun j => (g'.data.get j).toSection) (Fin.castLE h) R R' := by
  obtain ⟨W, hW⟩ := oneMore_built nm pos calls more w parent location side d hside hfresh (by rw [← hp]; exact hmore)
  rw [← hp, ← hp'] at hW
  have i1 : PlaneInv p := hp ▸ built_inv nm pos _
  have i2 : PlaneInv p' := hp' ▸ built_inv nm pos _
  obtain ⟨g, hg, hdata⟩ := hW.grids i1 i2 hg'
  have hlen : g.data.length ≤ g'.data.length := by rw [hdata]; simp
  have hget : ∀ i, g'.data.get (Fin.castLE hlen i) = g.data.get i := fun i => by
    simp only [List.get_eq_getElem, Fin.val_castLE, hdata]
    rw [List.getElem_append_left i.2]
  refine ⟨g, hg, hlen, hget, fun a c R' ha hw h => ?_⟩
  refine llSolve_flat (G := g.geom p.cg) (G' := g'.geom p'.cg) (f := Fin.castLE hlen) (Fin.castLE_injective hlen) hW.cg
    (fun i => congrArg GridSec.toSection (hget i)) (fun j hj => ?_) ha hw h
  have hj2 : g.data.length ≤ j.1 := by
    by_contra hlt
    exact mem_added.1 hj ⟨⟨j.1, by omega⟩, rfl⟩
  have hm : g'.data.get j ∈ (W.segments.flatMap (segSecs p' cosine)).map GridSec.withIc2 := by
    simp only [List.get_eq_getElem, hdata]
    rw [List.getElem_append_right hj2]
    exact List.getElem_mem _
  obtain ⟨y, hy, hyx⟩ := List.mem_map.1 hm
  obtain ⟨s, hs, hys⟩ := List.mem_flatMap.1 hy
  obtain ⟨z1, z2⟩ := hflat W (by rw [hW.heap]; simp) s hs
  obtain ⟨q1, q2, q3⟩ := segSecs_flat z1 z2 hys
  show Section.Flat (g'.data.get j).toSection
  rw [← hyx]
  exact ⟨q1, q2, q3⟩

/-! ### The hypotheses are met -/

/-- a plate beside the right tip of the straight wing `Main` -/
noncomputable def plateDims : WingDims := { yoffset := some 5, semispan := some 1, mountAngle := some 3 }

/-- its airfoil: no lift slope -/
noncomputable def plateAirfoil : AirfoilProps :=
  { al0 := some 0, cla := some 0, clMax := some 1, cml0 := some (-1/10), cma := some 0, cd0 := some (1/50), cd1 := some 0, cd2 := some 0 }

noncomputable def plateOps : List PlaneOp :=
  straightOps ++ .addWing "Plate" none "tip" "right" plateDims :: [.airfoil 1 "plate" "both" plateAirfoil]

noncomputable def plateSeg : Seg :=
  ((mkSeg "right_Plate" .right plateDims).connectTo .plane "tip").setAirfoil "both"
    { name := "plate", spanPosition := none, al0 := 0, cla := 0, clMax := 1, cml0 := -1/10, cma := 0, cd0 := 1/50, cd1 := 0, cd2 := 0 }

theorem plate_segments (nm : String) (pos : Option V3) :
    (built nm pos plateOps).segments = [straightSeg .left, straightSeg .right, plateSeg] := rfl

theorem plate_straight (nm : String) (pos : Option V3) : StraightWing (built nm pos plateOps) := by
  have hmem : ∀ s ∈ (built nm pos plateOps).segments, s.parent = .plane ∧ s.sweep = 0 ∧ s.dihedral = 0 ∧ s.dpos = 0 := by
    rw [plate_segments]
    intro s hs
    simp only [List.mem_cons, List.not_mem_nil, or_false] at hs
    rcases hs with rfl | rfl | rfl <;> exact ⟨rfl, rfl, rfl, rfl⟩
  refine ⟨fun s hs => ⟨(hmem s hs).2.1, (hmem s hs).2.2.1⟩, ?_, ?_, ?_, ?_⟩
  · rw [plate_segments]
    intro s hs
    simp only [List.mem_cons, List.not_mem_nil, or_false] at hs
    rcases hs with rfl | rfl | rfl <;> simp [straightSeg, plateSeg, mkSeg, Seg.connectTo, Seg.setAirfoil, straightDims, plateDims]
  · rw [plate_segments]
    intro s hs
    simp only [List.mem_cons, List.not_mem_nil, or_false] at hs
    rcases hs with rfl | rfl | rfl <;>
      simp [straightSeg, plateSeg, mkSeg, Seg.connectTo, Seg.setAirfoil, straightDims, plateDims, Airfoil.default] <;> norm_num
  · refine ⟨(0 : V3).x + (built nm pos plateOps).getPosition.x, (0 : V3).z + (built nm pos plateOps).getPosition.z, fun s hs => ?_⟩
    obtain ⟨h1, h2, h3, e⟩ := hmem s hs
    rw [tips_at_plane h1 ⟨h2, h3⟩, e]
    exact ⟨_, rfl⟩
  · have hm := hmem
    rw [plate_segments] at hm ⊢
    refine .cons (fun t ht a b ha hb => ?_) (.cons (fun t ht a b ha hb => ?_) (.cons (by simp) .nil))
    · rw [tips_at_plane rfl ⟨rfl, rfl⟩] at ha
      simp only [List.mem_cons, List.not_mem_nil, or_false] at ht
      rcases ht with rfl | rfl <;> rw [tips_at_plane rfl ⟨rfl, rfl⟩] at hb <;> cases ha <;> cases hb <;> left <;>
        simp [straightSeg, plateSeg, mkSeg, Seg.connectTo, Seg.setAirfoil, straightDims, plateDims] <;> linarith
    · rw [tips_at_plane rfl ⟨rfl, rfl⟩] at ha
      obtain rfl := List.mem_singleton.1 ht
      rw [tips_at_plane rfl ⟨rfl, rfl⟩] at hb
      cases ha; cases hb; left
      simp [straightSeg, plateSeg, mkSeg, Seg.connectTo, Seg.setAirfoil, straightDims, plateDims]
      linarith

theorem plate_grid (nm : String) (pos : Option V3) (co : Bool) : ∃ g, mkGrid (built nm pos plateOps) co = .ok g := by
  apply C82_grid_exists
  have key : ∀ {name parent location side d}, PlaneOp.addWing name parent location side d ∈ plateOps → d = straightDims ∨ d = plateDims := by
    intro name parent location side d h
    simp [plateOps, straightOps] at h
    rcases h with h | h
    · exact .inl h.2.2.2.2
    · exact .inr h.2.2.2.2
  constructor
  · intro pre name parent location side d post h hv hp
    have : PlaneOp.addWing name (some parent) location side d ∈ plateOps := by rw [h]; simp
    simp [plateOps, straightOps] at this
  · intro name parent location side d h _
    rcases key h with rfl | rfl <;> simp [straightDims, plateDims]
  · intro name parent location side d h _
    rcases key h with rfl | rfl <;> simp [straightDims, plateDims]
  · intro name parent location side d h _
    rcases key h with rfl | rfl <;> simp [straightDims, plateDims]
  · intro id props h _
    simp [plateOps, straightOps] at h
    rw [h.2]
    refine ⟨fun a b hab => ?_, fun q hq => ?_⟩
    · simp [straightFlap] at hab
      rw [← hab.1, ← hab.2]; norm_num
    · simp [straightFlap] at hq
      rw [← hq]; norm_num [PctChord.atRoot, PctChord.atTip]

/-- the straight wing with flap, given a plate beside its right tip, in sideslip with the flap lowered -/
example (nm : String) (pos : Option V3) (co : Bool) : ∃ g', mkGrid (built nm pos plateOps) co = .ok g' ∧
    NoLiftSlope (built nm pos plateOps) (built nm pos straightOps).heap.length ∧
    OnlyWing (built nm pos straightOps).heap.length [.airfoil 1 "plate" "both" plateAirfoil] ∧
    ∃ R', (llSolve (g'.geom 0) (LLState.init _) "linear"
      (some { Vmag := some 10, rho := some 1.2, alpha := some 5, beta := some 10 }) (some { flap := some 20 })).1 = .ok R' := by
  obtain ⟨g', hg'⟩ := plate_grid nm pos co
  refine ⟨g', hg', ?_, ?_, ?_⟩
  · intro W hW s hs
    have e : (built nm pos plateOps).heap[(built nm pos straightOps).heap.length]? = some (.onlyRight plateSeg) := rfl
    rw [e] at hW
    cases hW
    obtain rfl := List.mem_singleton.1 hs
    exact ⟨rfl, rfl⟩
  · intro op hop
    exact .inl ⟨_, _, _, List.mem_singleton.1 hop⟩
  · refine C128_solvable (plate_straight nm pos) hg' 0 (V := 10) (r := 1.2) (α := 5) (β := 10) ⟨rfl, rfl, rfl, rfl, rfl, rfl, rfl, rfl⟩
      (by norm_num) ⟨by norm_num [abs_lt], fun s hs => ?_⟩ _ _
    rw [plate_segments] at hs
    simp only [List.mem_cons, List.not_mem_nil, or_false] at hs
    rcases hs with rfl | rfl | rfl <;>
      simp [straightSeg, plateSeg, mkSeg, Seg.connectTo, Seg.setAirfoil, straightDims, plateDims, abs_lt] <;> norm_num

end Verif
