import Verif.Spec.OutOfWay
import Verif.Thm.Slipstream
import Verif.Thm.CraftMove
import Verif.Thm.PropElement
import Verif.Lemmas.Memory

/-!
# A propeller out of the way of the wings: lemmas
-/

namespace Verif
open V3 Act

/-! ### Taking an aircraft apart -/

/-- the aircraft without its propellers -/
theorem built_noProps (nm : String) (pos : Option V3) (ops : List PlaneOp) :
    built nm pos (ops.filter fun c => !c.aboutProp) = { built nm pos ops with props := [] } := by
  have key : ∀ (ops : List PlaneOp) (p : Plane),
      runOps { p with props := [] } (ops.filter fun c => !c.aboutProp) = { runOps p ops with props := [] } := by
    intro ops
    induction ops with
    | nil => intro p; rfl
    | cons c ops ih =>
      intro p
      have hr : runOps p (c :: ops) = runOps (c.run p) ops := rfl
      rw [hr, ← ih (c.run p)]
      by_cases hc : c.aboutProp = true
      · rw [List.filter_cons_of_neg (by simp [hc])]
        congr 1
        cases c with
        | addProp n d => rfl
        | propAirfoil n a pr =>
          simp only [PlaneOp.run, Plane.propAirfoil]
          cases mkAirfoil a pr with
          | error e => rfl
          | ok x => simp only; cases dictGet p.props n <;> rfl
        | _ => simp [PlaneOp.aboutProp] at hc
      · rw [List.filter_cons_of_pos (by simp [hc])]
        show runOps (c.run _) _ = _
        congr 1
        cases c with
        | addProp n d => simp [PlaneOp.aboutProp] at hc
        | propAirfoil n a pr => simp [PlaneOp.aboutProp] at hc
        | addWing n par loc side d =>
          simp only [PlaneOp.run, Plane.addWing]
          cases mkWing n side d with
          | error e => rfl
          | ok w =>
            simp only
            split <;> rfl
        | airfoil id n e pr =>
          simp only [PlaneOp.run, Plane.wingAirfoil]
          cases mkAirfoil n pr <;> rfl
        | controlSurface id pr =>
          simp only [PlaneOp.run, Plane.wingCtrl]
          cases mkCtrlSurf pr <;> rfl
        | cgLocation x y z => rfl
        | setRefLengths a b => rfl
  exact key ops (newPlane nm pos)

/-- the aircraft without its wings -/
theorem built_noWings (nm : String) (pos : Option V3) (ops : List PlaneOp) :
    built nm pos (ops.filter fun c => !c.aboutWing) = { built nm pos ops with wings := [], heap := [] } := by
  have key : ∀ (ops : List PlaneOp) (p : Plane),
      runOps { p with wings := [], heap := [] } (ops.filter fun c => !c.aboutWing) = { runOps p ops with wings := [], heap := [] } := by
    intro ops
    induction ops with
    | nil => intro p; rfl
    | cons c ops ih =>
      intro p
      have hr : runOps p (c :: ops) = runOps (c.run p) ops := rfl
      rw [hr, ← ih (c.run p)]
      by_cases hc : c.aboutWing = true
      · rw [List.filter_cons_of_neg (by simp [hc])]
        congr 1
        cases c with
        | addWing n par loc side d =>
          simp only [PlaneOp.run, Plane.addWing]
          cases mkWing n side d with
          | error e => rfl
          | ok w => simp only; split <;> rfl
        | airfoil id n e pr =>
          simp only [PlaneOp.run, Plane.wingAirfoil]
          cases mkAirfoil n pr <;> rfl
        | controlSurface id pr =>
          simp only [PlaneOp.run, Plane.wingCtrl]
          cases mkCtrlSurf pr <;> rfl
        | _ => simp [PlaneOp.aboutWing] at hc
      · rw [List.filter_cons_of_pos (by simp [hc])]
        show runOps (c.run _) _ = _
        congr 1
        cases c with
        | addProp n d => rfl
        | propAirfoil n a pr =>
          simp only [PlaneOp.run, Plane.propAirfoil]
          cases mkAirfoil a pr with
          | error e => rfl
          | ok x => simp only; cases dictGet p.props n <;> rfl
        | cgLocation x y z => rfl
        | setRefLengths a b => rfl
        | _ => simp [PlaneOp.aboutWing] at hc
  exact key ops (newPlane nm pos)

theorem mkWingPart_noProps (p : Plane) : mkWingPart { p with props := [] } = mkWingPart p :=
  mkWingPart_congr rfl rfl rfl rfl rfl

/-- the propeller model without the wings -/
theorem openProps_alone {ι κ : Type} (table : String → ℝ → ℝ) (mem : String → ℕ → ℕ → Option ℝ) {p p1 : Plane} (hq : p1.props = p.props)
    (hc : p1.cg = p.cg) (hu : p1.units = p.units) (pts : Option (ι → V3)) (pts' : Option (κ → V3)) :
    openProps table mem p1 pts' =
      (openProps table mem p pts).map fun s => s.map fun sl =>
        { name := sl.name, model := ⟨sl.model.geom, sl.model.stn, sl.model.motor, pts', sl.model.cg, sl.model.units⟩, st := sl.st } := by
  have hU : p1.getUnits = p.getUnits := by unfold Plane.getUnits; rw [hu]
  let φ : PropM ι → PropM κ := fun M => ⟨M.geom, M.stn, M.motor, pts', M.cg, M.units⟩
  have k := foldlM_image (fun (d : List (String × PropM ι)) => d.map fun (kv : String × PropM ι) => (kv.1, φ kv.2))
    (f := fun d (q : PropGeom) => do
        let u ← p.getUnits
        let m ← mkPropM table q p.cg u pts
        return dictSet d q.name m)
    (g := fun d (q : PropGeom) => do
        let u ← p1.getUnits
        let m ← mkPropM table q p1.cg u pts'
        return dictSet d q.name m) (by
      intro d q
      rw [hU, hc]
      cases p.getUnits with
      | error e => rfl
      | ok u =>
        simp only [bind, Except.bind]
        rw [mkPropM_pts table q p.cg u pts pts']
        cases mkPropM table q p.cg u pts with
        | error e => rfl
        | ok m =>
          simp only [Except.map, pure, Except.pure]
          exact congrArg Except.ok (dictSet_map (fun _ (a : PropM ι) => φ a) d q.name m).symm) (p.props.map Prod.snd) []
  unfold openProps
  rw [hq]
  rw [List.map_nil] at k
  rw [k]
  cases ((p.props.map Prod.snd).foldlM (fun d q => do
        let u ← p.getUnits
        let m ← mkPropM table q p.cg u pts
        return dictSet d q.name m) ([] : List (String × PropM ι)) : Except PyErr (List (String × PropM ι))) with
  | error e => rfl
  | ok d =>
    simp only [Except.map, bind, Except.bind, pure, Except.pure, List.map_map]
    rfl

theorem dictSet_values {α : Type} {P : α → Prop} (k : String) (a : α) (ha : P a) : ∀ d : List (String × α), (∀ kv ∈ d, P kv.2) →
    ∀ kv ∈ dictSet d k a, P kv.2 := by
  intro d hd kv hkv
  induction d with
  | nil => simp [dictSet] at hkv; rw [hkv]; exact ha
  | cons x t ih =>
    unfold dictSet at hkv
    split at hkv
    · rcases List.mem_cons.1 hkv with rfl | h
      · exact ha
      · exact hd _ (List.mem_cons_of_mem _ h)
    · rcases List.mem_cons.1 hkv with rfl | h
      · exact hd _ List.mem_cons_self
      · exact ih (fun y hy => hd y (List.mem_cons_of_mem _ hy)) h

/-- every model is the model of a propeller of the aircraft -/
theorem openProps_geom {ι : Type} {table : String → ℝ → ℝ} {mem : String → ℕ → ℕ → Option ℝ} {p : Plane} {pts : Option (ι → V3)}
    {s : List (PropSlot ι)} (h : openProps table mem p pts = .ok s) : ∀ sl ∈ s, ∃ kv ∈ p.props, sl.model.geom = kv.2 := by
  have key : ∀ (L : List PropGeom) (d d' : List (String × PropM ι)), (∀ q ∈ L, ∃ kv ∈ p.props, q = kv.2) →
      (∀ kv ∈ d, ∃ kv' ∈ p.props, kv.2.geom = kv'.2) →
      L.foldlM (fun (d : List (String × PropM ι)) q => do
        let u ← p.getUnits
        let m ← mkPropM table q p.cg u pts
        return dictSet d q.name m) d = .ok d' → ∀ kv ∈ d', ∃ kv' ∈ p.props, kv.2.geom = kv'.2 := by
    intro L
    induction L with
    | nil => intro d d' _ hd h; cases h; exact hd
    | cons q L ih =>
      intro d d' hL hd h
      rw [List.foldlM_cons] at h
      cases hu : p.getUnits with
      | error e => rw [hu] at h; cases h
      | ok u =>
        cases hm : mkPropM table q p.cg u pts with
        | error e => rw [hu] at h; simp only [bind, Except.bind, hm] at h; cases h
        | ok m =>
          simp only [hu, bind, Except.bind, hm, pure, Except.pure] at h
          refine ih _ d' (fun q hq => hL q (List.mem_cons_of_mem _ hq)) ?_ (by simpa only [hu, bind, Except.bind, pure, Except.pure] using h)
          refine dictSet_values (P := fun m : PropM ι => ∃ kv' ∈ p.props, m.geom = kv'.2) _ _ ?_ d hd
          obtain ⟨kv, h1, h2⟩ := hL q List.mem_cons_self
          exact ⟨kv, h1, by rw [(mkPropM_ok hm).2.2.1, h2]⟩
  unfold openProps at h
  cases hf : ((p.props.map Prod.snd).foldlM (fun d q => do
        let u ← p.getUnits
        let m ← mkPropM table q p.cg u pts
        return dictSet d q.name m) ([] : List (String × PropM ι)) : Except PyErr (List (String × PropM ι))) with
  | error e => rw [hf] at h; cases h
  | ok d =>
    rw [hf] at h
    cases h
    intro sl hsl
    obtain ⟨kv, hkv, rfl⟩ := List.mem_map.1 hsl
    refine key _ [] d (fun q hq => ?_) (by simp) hf kv hkv
    obtain ⟨kv', h1, rfl⟩ := List.mem_map.1 hq
    exact ⟨kv', h1, rfl⟩

/-! ### One solve -/

section
variable {ι : Type} {B : Backend ι}

/-- a solve of an aircraft with propellers -/
theorem muSolve_props (hP : B.hasProps = true) (ps : Option B.π) (w : World B) {d : AeroDict ι} (hd : w.aero = some d) (ht : d.truthy = true) :
    muSolve ps w =
      match B.propSolve d ps w.st with
      | (.error e, st) => (.error e, { w with st := st })
      | (.ok (r, field), st1) =>
        if B.hasWings then
          match B.wingSolve { d with localState := field.or d.localState } w.ctrl st1 with
          | (.ok R, st2) => (.ok (totalOf (some r) (some R)), { w with st := st2, aero := some { d with localState := field.or d.localState }, objs := w.objs ++ [totalOf (some r) (some R)] })
          | (.error e, st2) => (.error e, { w with st := st2, aero := some { d with localState := field.or d.localState } })
        else (.ok (totalOf (ι := ι) (some r) none), { w with st := st1, aero := some { d with localState := field.or d.localState }, objs := w.objs ++ [totalOf (ι := ι) (some r) none] }) := by
  have hg : aeroGiven w = true := by unfold aeroGiven; rw [hd]; exact ht
  have h1 : getAero id w = (.ok d, w) := by unfold getAero; rw [hd]; rfl
  obtain ⟨st, aero, ctrl, objs, files⟩ := w
  simp only at hd
  subst hd
  unfold muSolve
  rw [get_bind, if_pos hg]
  unfold solveParts
  rw [bind_def, bind_of_ok h1]
  simp only
  rcases hq : B.propSolve d ps st with ⟨e | ⟨r, field⟩, st1⟩
  · have h2 : solveProps ps d (⟨st, some d, ctrl, objs, files⟩ : World B) = (.error e, ⟨st1, some d, ctrl, objs, files⟩) := by
      unfold solveProps
      rw [if_pos hP]
      exact bind_of_error (by unfold onSolver; rw [hq]) _
    rw [bind_of_error h2]
  · have h2 : solveProps ps d (⟨st, some d, ctrl, objs, files⟩ : World B) =
        (.ok (some r), ⟨st1, some { d with localState := field.or d.localState }, ctrl, objs, files⟩) := by
      unfold solveProps
      rw [if_pos hP, bind_of_ok (by unfold onSolver; rw [hq])]
      cases field <;> rfl
    rw [bind_of_ok h2, bind_def]
    unfold solveWings
    cases hW : B.hasWings
    · rfl
    · simp only [if_true]
      rw [get_bind]
      rcases hw : B.wingSolve { d with localState := field.or d.localState } ctrl st1 with ⟨e | R, st2⟩
      · have h3 : onSolver (B.wingSolve ((some { d with localState := field.or d.localState } : Option (AeroDict ι)).getD {}) ctrl)
            (⟨st1, some { d with localState := field.or d.localState }, ctrl, objs, files⟩ : World B) =
            (.error e, ⟨st2, some { d with localState := field.or d.localState }, ctrl, objs, files⟩) := by
          unfold onSolver; rw [Option.getD_some, hw]
        rw [bind_of_error h3]
      · have h3 : onSolver (B.wingSolve ((some { d with localState := field.or d.localState } : Option (AeroDict ι)).getD {}) ctrl)
            (⟨st1, some { d with localState := field.or d.localState }, ctrl, objs, files⟩ : World B) =
            (.ok R, ⟨st2, some { d with localState := field.or d.localState }, ctrl, objs, files⟩) := by
          unfold onSolver; rw [Option.getD_some, hw]
        rw [bind_of_ok h3]
        rfl

end

/-! ### The wing solver -/

section
variable {ι : Type} [Fintype ι] [DecidableEq ι]

theorem llSolve_alike (G : LLGeom ι) {st st0 : LLState ι} {d d0 : AeroDict ι} (hd : d.truthy = true) (hd0 : d0.truthy = true)
    (ha : arrOf G d0 = arrOf G d) (hc : st0.ctrl = st.ctrl) (c : Option CtrlDict) :
    (llSolve G st0 "linear" (some d0) c).1 = (llSolve G st "linear" (some d) c).1 ∧
      (llSolve G st0 "linear" (some d0) c).2.ctrl = (llSolve G st "linear" (some d) c).2.ctrl := by
  have k := processAero_explicit G st d hd
  have k0 := processAero_explicit G st0 d0 hd0
  rw [ha] at k0
  unfold llSolve
  cases h : arrOf G d with
  | error e =>
    rw [h] at k k0
    simp only at k k0
    rw [k, k0]
    exact ⟨rfl, hc⟩
  | ok a =>
    rw [h] at k k0
    obtain ⟨rt, k⟩ := k
    obtain ⟨rt0, k0⟩ := k0
    rw [k, k0]
    simp only [if_true]
    have hs : (processCtrl G { st0 with v := a.v, u := a.u, rho := a.rho, rates := rt0 } c).ctrl =
        (processCtrl G { st with v := a.v, u := a.u, rho := a.rho, rates := rt } c).ctrl :=
      processCtrl_ctrl G _ _ c hc
    have hr : runLinear G (processCtrl G { st0 with v := a.v, u := a.u, rho := a.rho, rates := rt0 } c) =
        runLinear G (processCtrl G { st with v := a.v, u := a.u, rho := a.rho, rates := rt } c) := by
      obtain ⟨a1, a2, a3⟩ := processCtrl_v G { st0 with v := a.v, u := a.u, rho := a.rho, rates := rt0 } c
      obtain ⟨b1, b2, b3⟩ := processCtrl_v G { st with v := a.v, u := a.u, rho := a.rho, rates := rt } c
      rw [runLinear_eq, runLinear_eq, hs, a1, a2, a3, b1, b2, b3]
    rw [hr]
    rcases runLinear G (processCtrl G { st with v := a.v, u := a.u, rho := a.rho, rates := rt } c) with e | R
    · cases e <;> exact ⟨rfl, hs⟩
    · exact ⟨rfl, hs⟩

theorem llSolve_noArr (G : LLGeom ι) {st : LLState ι} {d : AeroDict ι} (hd : d.truthy = true) {e : PyErr} (ha : arrOf G d = .error e)
    (c : Option CtrlDict) : llSolve G st "linear" (some d) c = (.error e, st) := by
  have k := processAero_explicit G st d hd
  rw [ha] at k
  simp only at k
  unfold llSolve
  rw [k]

/-- the freestream at every control point, given point by point -/
theorem arrOf_freestream (G : LLGeom ι) {d : AeroDict ι} {V rho : ℝ} {u : V3} (hV : d.Vmag = some V) (hr : d.rho = some rho)
    (hu : freestream 1 (d.alpha.getD 0) (d.beta.getD 0) = some u) :
    arrOf G (d.elsewhere : AeroDict ι) = arrOf G { d with localState := some fun _ => (rho, V • u) } := by
  have hf : freestream V (d.alpha.getD 0) (d.beta.getD 0) = some (V • u) := by
    have := freestream_scale V 1 (d.alpha.getD 0) (d.beta.getD 0)
    rw [mul_one, hu] at this
    exact this
  unfold arrOf
  simp only [AeroDict.elsewhere, hV, hr, hf]
  rfl

end

/-! ### The propellers -/

section
variable {ι κ : Type} {simps : List ℝ → List ℝ → ℝ} {fuel : ℕ}

theorem pointVel_missed (fl : PFlow) (pt : V3) (l : List (PropM ι × PropOut)) (h : ∀ x ∈ l, x.1.geom.Misses pt) :
    pointVel fl pt l = .ok (fl.V • fl.u) := by
  induction l with
  | nil => rfl
  | cons x l ih =>
    obtain ⟨M, o⟩ := x
    obtain ⟨f, hf, hm⟩ := h (M, o) List.mem_cons_self
    have hf' : f = M.fwd := hf.trans (axisOf M.geom).symm
    subst hf'
    have h1 : propVel M fl.V o.n o.c pt = .ok 0 := C68_outside M fl.V o.n o.c pt hm
    unfold pointVel
    rw [h1, ih fun y hy => h y (List.mem_cons_of_mem _ hy)]
    simp [bind, Except.bind, pure, Except.pure]

theorem flowSim_elsewhere {d : AeroDict ι} (hd : (d.elsewhere : AeroDict κ).truthy = true) : FlowSim (moveScl 0) d (d.elsewhere : AeroDict κ) := by
  refine ⟨?_, hd, by simp [moveScl, AeroDict.elsewhere], by simp [moveScl, AeroDict.elsewhere], rfl, rfl⟩
  simp only [AeroDict.elsewhere, AeroDict.truthy, Option.isSome_none, Bool.or_false] at hd ⊢
  revert hd
  generalize d.localState.isSome = b
  generalize d.other = c
  generalize (d.Vmag.isSome || d.rho.isSome || d.alpha.isSome || d.beta.isSome || d.roll.isSome || d.pitch.isSome || d.yaw.isSome) = e
  cases b <;> cases c <;> cases e <;> simp

theorem runsAlike_elsewhere {d : AeroDict ι} (hd : (d.elsewhere : AeroDict κ).truthy = true) (ps : PropDict) :
    RunsAlike simps fuel (moveScl 0) (fun st st' => st' = st) d (d.elsewhere : AeroDict κ) ps ps := by
  intro sl sl' h
  unfold slotRun
  rw [h.name, h.st]
  cases localPS ps sl.name with
  | error e => exact ⟨rfl, rfl⟩
  | ok pd => exact runProp_cg rfl rfl rfl h.model simps fuel (flowSim_elsewhere hd) pd sl.st

/-- the propellers on their own and on the aircraft -/
theorem propsSolve_missed {pts : ι → V3} {d : AeroDict ι} (hd : (d.elsewhere : AeroDict κ).truthy = true) (ps : PropDict)
    {sls : List (PropSlot ι)} {sls1 : List (PropSlot κ)} (h : List.Forall₂ (SlotSim (moveScl 0) fun st st' => st' = st) sls sls1)
    (hm : ∀ sl ∈ sls, ∀ i, sl.model.geom.Misses (pts i)) :
    (∃ e e' sl' sl1', propsSolve simps fuel (some pts) (some d) ps sls = (.error e, sl') ∧
      propsSolve simps fuel none (some (d.elsewhere : AeroDict κ)) ps sls1 = (.error e', sl1')) ∨
    ∃ tot sl' sl1', propsSolve simps fuel none (some (d.elsewhere : AeroDict κ)) ps sls1 = (.ok (tot, none), sl1') ∧
      (((d.Vmag = none ∨ d.rho = none) ∧ ∃ e, propsSolve simps fuel (some pts) (some d) ps sls = (.error e, sl')) ∨ ∃ V rho u, d.Vmag = some V ∧ d.rho = some rho ∧
        freestream 1 (d.alpha.getD 0) (d.beta.getD 0) = some u ∧
        propsSolve simps fuel (some pts) (some d) ps sls = (.ok (tot, some fun _ => (rho, V • u)), sl') ∧
        List.Forall₂ (SlotSim (moveScl 0) fun st st' => st' = st) sl' sl1' ∧ sl'.map PropSlot.model = sls.map PropSlot.model) := by
  obtain ⟨k1, k2⟩ := propsForces_sim (flowSim_elsewhere hd) (runsAlike_elsewhere (simps := simps) (fuel := fuel) hd ps) h
  have hdt := (flowSim_elsewhere hd).given
  unfold propsSolve
  rw [bind_def, bind_def]
  rcases hq : propsForces simps fuel (some d) ps sls with ⟨e | ⟨tot, outs⟩, s'⟩
  · rcases hq1 : propsForces simps fuel (some (d.elsewhere : AeroDict κ)) ps sls1 with ⟨e' | x, s1'⟩
    · left
      exact ⟨e, e', s', s1', rfl, rfl⟩
    · rw [hq, hq1] at k1; simp [Except.map] at k1
  · rcases hq1 : propsForces simps fuel (some (d.elsewhere : AeroDict κ)) ps sls1 with ⟨e' | ⟨tot1, outs1⟩, s1'⟩
    · rw [hq, hq1] at k1; simp [Except.map] at k1
    · rw [hq, hq1] at k1 k2
      simp only [Except.map, Except.ok.injEq, Prod.mk.injEq] at k1
      obtain ⟨rfl, -⟩ := k1
      have ht : tot.sim (moveScl 0) = tot := by
        simp only [PropTotals.sim, moveLoads]
        simp [moveScl, Scl.a]
      right
      refine ⟨tot, s', s1', by rw [ht]; rfl, ?_⟩
      obtain ⟨d', u, acc, hdd, hu, hl, -⟩ := propsForces_ok hq
      cases hdd
      cases hV : d.Vmag with
      | none =>
        have hfl : propFlow (some d) = .error .runtime := by unfold propFlow; simp only [hdt, if_true, hu, hV]
        refine Or.inl ⟨Or.inl rfl, .runtime, ?_⟩
        simp only
        rw [hfl, lift_error_bind]
      | some V =>
        cases hr : d.rho with
        | none =>
          have hfl : propFlow (some d) = .error .runtime := by unfold propFlow; simp only [hdt, if_true, hu, hV, hr]
          refine Or.inl ⟨Or.inr rfl, .runtime, ?_⟩
          simp only
          rw [hfl, lift_error_bind]
        | some rho =>
          right
          have hmod := (propsLoop_ok hl).2.2.2.2.1
          refine ⟨V, rho, u, rfl, rfl, hu, ?_, k2, hmod⟩
          have hfl : propFlow (some d) = .ok ⟨rho, V, u⟩ := by
            unfold propFlow
            simp only [hdt, if_true, hu, hV, hr]
          have hpt : ∀ i, pointVel ⟨rho, V, u⟩ (pts i) ((s'.map PropSlot.model).zip outs) = .ok (V • u) := by
            intro i
            refine pointVel_missed _ _ _ fun x hx => ?_
            have hx1 : x.1 ∈ s'.map PropSlot.model := (List.of_mem_zip (a := x.1) (b := x.2) hx).1
            rw [hmod] at hx1
            obtain ⟨sl, h1, h2⟩ := List.mem_map.1 hx1
            rw [← h2]
            exact hm sl h1 i
          simp only
          rw [hfl, lift_ok_bind, get_bind]
          simp only [hpt]
          rw [if_pos (fun i => by rw [hpt i]; rfl)]
          rfl

end

end Verif
