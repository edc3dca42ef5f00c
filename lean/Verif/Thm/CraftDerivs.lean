import Verif.Lemmas.SimDerivs
import Verif.Thm.PropOrder
import Verif.Thm.Session

/-!
# Derivatives of aircraft with wings and propellers (C123)
-/

namespace Verif
open V3 Act

/-- the reference area and lengths of the larger aircraft -/
theorem refs_enlarge {l : ℝ} (hl : 0 < l) {p : Plane} {w w' : Option WingPart} (hw : mkWingPart p = .ok w)
    (hw' : mkWingPart (p.enlarge l) = .ok w') :
    (w'.map (·.Sw)).getD 0 = l ^ 2 * (w.map (·.Sw)).getD 0 ∧ (w'.map (·.lat)).getD 0 = l * (w.map (·.lat)).getD 0 ∧
    (w'.map (·.long)).getD 0 = l * (w.map (·.long)).getD 0 := by
  have hm := enlarge_gridMap hl p true
  unfold mkWingPart at hw hw'
  rw [show (p.enlarge l).wings = p.wings from rfl] at hw'
  by_cases h0 : p.wings = []
  · rw [if_pos h0] at hw hw'
    cases hw; cases hw'
    simp
  · rw [if_neg h0] at hw hw'
    cases hg : mkGrid p true with
    | error e => rw [hg] at hw; cases hw
    | ok g =>
      cases hg' : mkGrid (p.enlarge l) true with
      | error e => rw [hg'] at hw'; cases hw'
      | ok g' =>
        obtain ⟨-, -, h3⟩ := hm.grids hg hg'
        rw [hg] at hw
        rw [hg'] at hw'
        simp only [bind, Except.bind] at hw hw'
        rw [h3, refLengths_enlarge hl] at hw'
        cases hr : refLengths p g.refArea with
        | error e => rw [hr] at hw; cases hw
        | ok x =>
          rw [hr] at hw hw'
          cases hw
          cases hw'
          refine ⟨?_, rfl, rfl⟩
          exact h3

/-- `solve` on the two aircraft, in lockstep -/
theorem like_muSolve {l k : ℝ} (hl : 0 < l) (hk : 0 < k) (m : ℝ) {p : Plane} {o o' : Analyser}
    {σ : Fin (sectionsOf o.wing) ≃ Fin (sectionsOf o'.wing)}
    (hO : ObjSim (simScl l k m hl hk) o o' p (p.enlarge l) σ)
    (g4 : o.wing.isSome = true → (∀ i, (geomOf (l • p.cg) o'.wing).S (σ i) = ((geomOf p.cg o.wing).S i).scaleLength l) ∧
        (geomOf (l • p.cg) o'.wing).cg = l • (geomOf p.cg o.wing).cg)
    {simps : List ℝ → List ℝ → ℝ} {fuel : ℕ} {bad : _} {bad' : _} (ps : Option PropDict) (hn : ∀ x, ps = some x → x.NoPower) :
    Lock (LikeWorld (B := o.backend p simps fuel bad) (B' := o'.backend (p.enlarge l) simps fuel bad') l k m σ
        (StSim (simScl l k m hl hk) SameButRate σ)) (SimLoad l k m) (muSolve ps) (muSolve (ps.map (PropDict.scaleRates (k / l)))) := by
  intro w w' h
  obtain ⟨d, V, r, hd, hV, hr, hd'⟩ := h.aero
  have ht : d.truthy = true := by simp [AeroDict.truthy, hV]
  obtain ⟨g, g', -⟩ := h.given
  obtain ⟨h1, h2⟩ := muSolve_larger hl hk m hO g4 w w' ht hd hd' h.ctrl ps hn h.held
  have hps : (ps.map (PropDict.scaleRates (k / l))).getD [] = (ps.getD []).scaleRates (k / l) := by cases ps <;> rfl
  have hnp : (ps.getD []).NoPower := by
    cases hc : ps with
    | none => intro kv h; cases h
    | some x => exact hn x hc
  have hp := hO.propSolve (P := SameButRate) (bad := bad) (bad' := bad') (flowSim_similar hl hk m σ ht) ps
    (ps.map (PropDict.scaleRates (k / l))) (by rw [hps]; exact runsAlike_similar hl hk m σ simps fuel ht hnp) h.held
  obtain ⟨k1, k2, f, f', hff, k3, k4⟩ := solveParts_keeps (s := simScl l k m hl hk) (B := o.backend p simps fuel bad)
    (B' := o'.backend (p.enlarge l) simps fuel bad') σ (by show (!(p.enlarge l).props.isEmpty) = !p.props.isEmpty; rw [hO.props]) hd hd' hp
  have e1 := muSolve_post (B := o.backend p simps fuel bad) ps g
  have e2 := muSolve_post (B := o'.backend (p.enlarge l) simps fuel bad') (ps.map (PropDict.scaleRates (k / l))) g'
  refine ⟨h1, ?_, ?_, h2⟩
  · refine ⟨{ d with localState := f }, V, r, (congrArg World.aero e1).trans k3, hV, hr, (congrArg World.aero e2).trans (k4.trans ?_)⟩
    rcases hff with ⟨rfl, rfl⟩ | ⟨g, rfl, rfl⟩ <;> rfl
  · exact (congrArg World.ctrl e2).trans (k2.trans (h.ctrl.trans (k1.symm.trans (congrArg World.ctrl e1).symm)))

/-- **C123.** Build an aircraft (wings, propellers or both) twice, the second time with all lengths in all calls multiplied by `l`, and
construct a `MachUp` object for each.  Call `derivatives` on both with given airspeed and density, on the second one `k` times as fast in
air `m ≠ 0` times as dense, with the rotation rates of the aircraft and of the propellers multiplied by `k/l` (advance ratios are left
alone).  Both raise the same exception, or return the same stability, control and damping derivatives and the same static margin. -/
theorem C123_derivatives (table : String → ℝ → ℝ) (mem : String → ℕ → ℕ → Option ℝ) (simps : List ℝ → List ℝ → ℝ) (fuel : ℕ)
    (nm : String) (pos : Option V3) (ops : List PlaneOp) (units : Option (Option String)) {l k m : ℝ} (hl : 0 < l) (hk : 0 < k) (hm : m ≠ 0)
    (p p' : Plane) (hp : p = { built nm pos ops with units })
    (hp' : p' = { built nm (pos.map (l • ·)) (ops.map (PlaneOp.enlarge l)) with units }) (o o' : Analyser)
    (ho : openMachUp table mem p = .ok o) (ho' : openMachUp table mem p' = .ok o') :
    ∃ σ : Fin (sectionsOf o.wing) ≃ Fin (sectionsOf o'.wing), (∀ i, (σ i).val = i.val) ∧
      ∀ (bad : _) (bad' : _) (d : AeroDict (Fin (sectionsOf o.wing))) (c : Option CtrlDict) (ps : Option PropDict),
        d.Vmag.isSome → d.rho.isSome → (∀ x, ps = some x → x.NoPower) →
        let w := o.fresh p simps fuel bad (some d) c
        let w' := o'.fresh p' simps fuel bad' (some (((d.faster k m).divRates l).reindex σ)) c
        let ps' := ps.map (PropDict.scaleRates (k / l))
        (derivatives ps' none w').1 = (derivatives ps none w).1 ∧
        (stabilityDerivatives ps' w').1 = (stabilityDerivatives ps w).1 ∧
        (controlDerivatives ps' w').1 = (controlDerivatives ps w).1 ∧
        (dampingDerivatives ps' w').1 = (dampingDerivatives ps w).1 := by
  have hpe : p' = p.enlarge l := by
    rw [hp, hp', built_enlarge hl.ne']; rfl
  clear hp hp'
  subst hpe
  obtain ⟨σ, g0, hO, hslots, g4⟩ := objSim_enlarge hl hk m ho ho'
  refine ⟨σ, g0, fun bad bad' d c ps hV hr hn => ?_⟩
  obtain ⟨V, hV⟩ := Option.isSome_iff_exists.1 hV
  obtain ⟨r, hr⟩ := Option.isSome_iff_exists.1 hr
  intro w w' ps'
  have hs := like_muSolve hl hk m hO g4 (simps := simps) (fuel := fuel) (bad := bad) (bad' := bad') ps hn
  have hA : LikeWorld l k m σ (StSim (simScl l k m hl hk) SameButRate σ) w w' :=
    ⟨⟨d, V, r, rfl, hV, hr, rfl⟩, rfl, ⟨fun _ => rfl, fun _ => rfl⟩, hslots⟩
  obtain ⟨hw, -⟩ := slots_cases ho
  obtain ⟨hw', -⟩ := slots_cases ho'
  obtain ⟨r1, r2, r3⟩ := refs_enlarge hl hw hw'
  have hR : RefSim l (o.backend p simps fuel bad) (o'.backend (p.enlarge l) simps fuel bad') := ⟨rfl, r1, r2, r3⟩
  have hc : m * k ^ 2 * l ^ 2 ≠ 0 := by
    have := hk.ne'
    have := hl.ne'
    positivity
  exact ⟨(like_derivatives hs hR hl.ne' hc _ _ hA).1.eq, (like_stab hs hR hl.ne' hc _ _ hA).1.eq,
    (like_cont hs hR hl.ne' hc _ _ hA).1.eq, (like_damp hs hR hl.ne' hc _ _ hA).1.eq⟩

/-- a wing with elevons and a propeller -/
noncomputable def craftOps : List PlaneOp := unitOps ++ rotorOps

/-- the aircraft after it was given units -/
noncomputable def craft : Plane := { built "craft" none craftOps with units := some none }

theorem craft_props : craft.props = [("prop", demoProp)] := by
  show (built "craft" none craftOps).props = _
  have h : mkAirfoil "sym" { al0 := some 0, cla := some 6, clMax := some 1.2, cml0 := some 0, cma := some 0, cd0 := some 0.01, cd1 := some 0, cd2 := some 0.01 } = .ok demoFoil := by
    unfold mkAirfoil
    rw [if_pos (by simp [AirfoilProps.truthy])]
    rfl
  have h0 : (runOps (newPlane "craft" none) unitOps).props = [] := rfl
  have hc : built "craft" none craftOps = runOps (runOps (newPlane "craft" none) unitOps) rotorOps := by
    simp [built, craftOps, runOps]
  rw [hc]
  generalize runOps (newPlane "craft" none) unitOps = q at h0
  simp only [rotorOps, runOps, PlaneOp.run, List.foldl, Plane.propAirfoil, h]
  simp [Plane.addProp, mkProp, demoPropDims, dictSet, dictGet, demoProp, h0]

/-- a `MachUp` object can be constructed for it -/
theorem craft_open_data (table : String → ℝ → ℝ) (mem : String → ℕ → ℕ → Option ℝ) :
    ∃ (g : Grid) (M : PropM (Fin (sectionsOf (some ⟨g, 2, g.refArea / 2⟩)))),
      (∃ a b, g.data = [a, b] ∧ a.toSection = unitSec .left ∧ b.toSection = unitSec .right) ∧
      openMachUp table mem craft = .ok ⟨some ⟨g, 2, g.refArea / 2⟩, some [⟨"prop", M, { mem := mem "prop" }, none⟩]⟩ := by
  obtain ⟨g, hg, a, b, hab, ha, hb, -⟩ := unit_grid true
  have hw : mkWingPart craft = .ok (some ⟨g, 2, g.refArea / 2⟩) := by
    rw [← unit_wingPart hg]
    have e := runOps_other rotorOps (runOps (newPlane "craft" none) unitOps) _ rfl
    have e0 : (rotorOps.filter fun op => op.prop? = none) = [] := by simp [rotorOps, PlaneOp.prop?]
    rw [e0] at e
    have hc : built "craft" none craftOps = runOps (runOps (newPlane "craft" none) unitOps) rotorOps := by
      simp [built, craftOps, runOps]
    refine mkWingPart_congr ?_ ?_ ?_ ?_ ?_
    · show (built "craft" none craftOps).heap = _
      rw [hc]; exact (congrArg Plane.heap e).trans rfl
    · show (built "craft" none craftOps).wings = _
      rw [hc]; exact (congrArg Plane.wings e).trans rfl
    · show (built "craft" none craftOps).position = _
      rw [hc]; exact (congrArg Plane.position e).trans rfl
    · show (built "craft" none craftOps).latRef = _
      rw [hc]; exact (congrArg Plane.latRef e).trans rfl
    · show (built "craft" none craftOps).longRef = _
      rw [hc]; exact (congrArg Plane.longRef e).trans rfl
  have hps := craft_props
  obtain ⟨M, hM, -⟩ := demo_ok table craft.cg none (pointsOf (some (⟨g, 2, g.refArea / 2⟩ : WingPart)))
  refine ⟨g, M, ⟨a, b, hab, ha, hb⟩, ?_⟩
  unfold openMachUp
  rw [hw]
  simp only [pure, Except.pure, bind, Except.bind]
  rw [if_neg (by rw [hps]; simp)]
  unfold openProps
  rw [hps]
  have hu : craft.getUnits = .ok none := rfl
  simp only [List.map_cons, List.map_nil, List.foldlM_cons, List.foldlM_nil, hu, bind, Except.bind, pure, Except.pure]
  rw [hM]
  rfl

theorem craft_open (table : String → ℝ → ℝ) (mem : String → ℕ → ℕ → Option ℝ) :
    ∃ (g : Grid) (M : PropM (Fin (sectionsOf (some ⟨g, 2, g.refArea / 2⟩)))), g.data.length = 2 ∧
      openMachUp table mem craft = .ok ⟨some ⟨g, 2, g.refArea / 2⟩, some [⟨"prop", M, { mem := mem "prop" }, none⟩]⟩ := by
  obtain ⟨g, M, ⟨a, b, hab, -⟩, ho⟩ := craft_open_data table mem
  exact ⟨g, M, by rw [hab]; rfl, ho⟩

/-- C123: an aircraft with a wing and a propeller, the same aircraft three times as large and twice as fast, and a rotation rate for
the propeller -/
example (table : String → ℝ → ℝ) (mem : String → ℕ → ℕ → Option ℝ) (simps : List ℝ → List ℝ → ℝ) (fuel : ℕ) : ∃ o o' : Analyser,
    openMachUp table mem craft = .ok o ∧
    openMachUp table mem { built "craft" none (craftOps.map (PlaneOp.enlarge 3)) with units := some none } = .ok o' ∧
    sectionsOf o.wing = 2 ∧ ∃ σ : Fin (sectionsOf o.wing) ≃ Fin (sectionsOf o'.wing), ∀ bad bad',
    (derivatives (some [("rot_per_sec", .num 20)]) none
      (o'.fresh { built "craft" none (craftOps.map (PlaneOp.enlarge 3)) with units := some none } simps fuel bad'
        (some (((({ Vmag := some 10, rho := some 1 } : AeroDict (Fin (sectionsOf o.wing))).faster 2 1).divRates 3).reindex σ)) none)).1 =
    (derivatives (some [("rot_per_sec", .num 30)]) none (o.fresh craft simps fuel bad (some { Vmag := some 10, rho := some 1 }) none)).1 := by
  obtain ⟨g, M, hg, ho⟩ := craft_open table mem
  obtain ⟨o', ho'⟩ := (C122_similar table mem simps fuel "craft" none craftOps (some none) (l := 3) (k := 2) (by norm_num) (by norm_num) 1
    craft _ rfl rfl).1.1 ⟨_, ho⟩
  obtain ⟨σ, -, h⟩ := C123_derivatives table mem simps fuel "craft" none craftOps (some none) (l := 3) (k := 2) (m := 1) (by norm_num)
    (by norm_num) (by norm_num) craft _ rfl rfl _ o' ho ho'
  refine ⟨_, o', ho, ho', hg, σ, fun bad bad' => ?_⟩
  have := (h bad bad' { Vmag := some 10, rho := some 1 } none (some [("rot_per_sec", .num 30)]) rfl rfl
    (by intro x hx; cases hx; intro kv hkv; simp at hkv; subst hkv; simp)).1
  have e : PropDict.scaleRates (2 / 3) [("rot_per_sec", .num 30)] = [("rot_per_sec", .num 20)] := by
    simp [PropDict.scaleRates, PSVal.scaleRate]
    norm_num
  rw [Option.map_some, e] at this
  exact this

end Verif
