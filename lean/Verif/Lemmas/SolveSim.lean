import Verif.Lemmas.PropSim
import Verif.Thm.PropMirror

/-! Helper lemmas: `solve` on two aircraft, one of which is larger, flies faster or in denser air, or has another CG. -/

namespace Verif
open V3 Act

/-- one propeller of the loop of `_calc_forces` -/
noncomputable def slotRun {ι : Type} (simps : List ℝ → List ℝ → ℝ) (fuel : ℕ) (d : AeroDict ι) (ps : PropDict) (sl : PropSlot ι) :
    Except PyErr PropOut × PropSt :=
  match localPS ps sl.name with
  | .error e => (.error e, sl.st)
  | .ok s => runProp simps fuel sl.model (some d) s sl.st

section
variable {ι ι' : Type} {s : Scl} (simps : List ℝ → List ℝ → ℝ) (fuel : ℕ)

/-- a propeller of the other aircraft -/
structure SlotSim (s : Scl) (P : PropSt → PropSt → Prop) (sl : PropSlot ι) (sl' : PropSlot ι') : Prop where
  name : sl'.name = sl.name
  model : SimM s sl.model sl'.model
  st : P sl.st sl'.st

/-- the propellers of the two aircraft do the same, one at a time -/
def RunsAlike (s : Scl) (P : PropSt → PropSt → Prop) (d : AeroDict ι) (d' : AeroDict ι') (ps ps' : PropDict) : Prop :=
  ∀ (sl : PropSlot ι) (sl' : PropSlot ι'), SlotSim s P sl sl' →
    Outcome (fun o o' => o' = o.sim s) (slotRun simps fuel d ps sl).1 (slotRun simps fuel d' ps' sl').1 ∧
    P (slotRun simps fuel d ps sl).2 (slotRun simps fuel d' ps' sl').2

noncomputable def PropAcc.sim (s : Scl) (a : PropAcc) : PropAcc :=
  ⟨s.a • a.F, (s.a * s.l) • a.M - s.a • cross s.e a.F, a.last.map fun x => (s.a * x.1, s.a * s.l * x.2)⟩

variable {simps fuel} {P : PropSt → PropSt → Prop} {d : AeroDict ι} {d' : AeroDict ι'} {ps ps' : PropDict}

theorem propsLoop_sim (hR : RunsAlike simps fuel s P d d' ps ps')
    {sls : List (PropSlot ι)} {sls' : List (PropSlot ι')} (h : List.Forall₂ (SlotSim s P) sls sls') : ∀ acc : PropAcc,
    (propsLoop simps fuel (some d') ps' sls' (acc.sim s)).1 =
        (propsLoop simps fuel (some d) ps sls acc).1.map (fun r => (r.1.sim s, r.2.map (PropOut.sim s))) ∧
      List.Forall₂ (SlotSim s P) (propsLoop simps fuel (some d) ps sls acc).2 (propsLoop simps fuel (some d') ps' sls' (acc.sim s)).2 := by
  induction h with
  | nil => intro acc; exact ⟨rfl, .nil⟩
  | @cons sl sl' rest rest' h1 h2 ih =>
    intro acc
    have hrun := hR sl sl' h1
    unfold slotRun at hrun
    unfold propsLoop
    cases h3 : localPS ps sl.name with
    | error e =>
      cases h4 : localPS ps' sl'.name with
      | error e' =>
        rw [h3, h4] at hrun
        simp only [Outcome] at hrun
        exact ⟨by simp [Except.map, hrun.1], .cons h1 h2⟩
      | ok pd' =>
        rw [h3, h4] at hrun
        simp only at hrun ⊢
        revert hrun
        generalize runProp simps fuel sl'.model (some d') pd' sl'.st = A'
        rcases A' with ⟨e' | o', st'⟩
        · rintro ⟨k1, k2⟩
          simp only [Outcome] at k1
          exact ⟨by simp [Except.map, k1], .cons ⟨h1.name, h1.model, k2⟩ h2⟩
        · rintro ⟨k1, -⟩
          exact k1.elim
    | ok pd =>
      cases h4 : localPS ps' sl'.name with
      | error e' =>
        rw [h3, h4] at hrun
        simp only at hrun ⊢
        revert hrun
        generalize runProp simps fuel sl.model (some d) pd sl.st = A
        rcases A with ⟨e | o, st⟩
        · rintro ⟨k1, k2⟩
          simp only [Outcome] at k1
          exact ⟨by simp [Except.map, k1], .cons ⟨h1.name, h1.model, k2⟩ h2⟩
        · rintro ⟨k1, -⟩
          exact k1.elim
      | ok pd' =>
        rw [h3, h4] at hrun
        simp only at hrun ⊢
        revert hrun
        generalize runProp simps fuel sl.model (some d) pd sl.st = A
        generalize runProp simps fuel sl'.model (some d') pd' sl'.st = A'
        rcases A with ⟨e | o, st⟩ <;> rcases A' with ⟨e' | o', st'⟩ <;> rintro ⟨k1, k2⟩ <;> simp only [Outcome] at k1
        · exact ⟨by simp [Except.map, k1], .cons ⟨h1.name, h1.model, k2⟩ h2⟩
        · subst k1
          simp only
          have e1 : ({ F := (acc.sim s).F + (o.sim s).F, M := (acc.sim s).M + (o.sim s).M, last := some ((o.sim s).T, (o.sim s).l) } : PropAcc) =
              PropAcc.sim s { F := acc.F + o.F, M := acc.M + o.M, last := some (o.T, o.l) } := by
            simp only [PropAcc.sim, PropOut.sim, PropAcc.mk.injEq, Option.map_some, and_true]
            constructor <;> ext <;> simp <;> ring
          rw [e1]
          obtain ⟨k3, k4⟩ := ih { F := acc.F + o.F, M := acc.M + o.M, last := some (o.T, o.l) }
          revert k3 k4
          generalize propsLoop simps fuel (some d') ps' rest' _ = B
          generalize propsLoop simps fuel (some d) ps rest _ = A
          intro k3 k4
          rcases A with ⟨e | ⟨a, outs⟩, A2⟩ <;> rcases B with ⟨e' | ⟨b, outs'⟩, B2⟩ <;> simp [Except.map] at k3
          · subst k3
            exact ⟨rfl, .cons ⟨h1.name, h1.model, k2⟩ k4⟩
          · obtain ⟨rfl, rfl⟩ := k3
            exact ⟨rfl, .cons ⟨h1.name, h1.model, k2⟩ k4⟩

theorem rotateForces_smul (u F : V3) (a : ℝ) :
    rotateForces u (a • F) = (rotateForces u F).map fun r => (a * r.1, a * r.2.1, a * r.2.2) := by
  unfold rotateForces
  simp only [bind, Except.bind]
  cases normalise (cross u ⟨0, 1, 0⟩) with
  | none => rfl
  | some L =>
    simp only
    cases normalise (cross L u) with
    | none => rfl
    | some S =>
      simp only [pure, Except.pure, Except.map, Except.ok.injEq, Prod.mk.injEq]
      refine ⟨?_, ?_, ?_⟩ <;> simp [dot] <;> ring

noncomputable def PropTotals.sim (s : Scl) (t : PropTotals) : PropTotals := ⟨t.loads.sim s, s.a * t.thrust, s.a * s.l * t.torque⟩

theorem propsForces_sim (hf : FlowSim s d d') (hR : RunsAlike simps fuel s P d d' ps ps')
    {sls : List (PropSlot ι)} {sls' : List (PropSlot ι')} (h : List.Forall₂ (SlotSim s P) sls sls') :
    (propsForces simps fuel (some d') ps' sls').1 =
        (propsForces simps fuel (some d) ps sls).1.map (fun r => (r.1.sim s, r.2.map (PropOut.sim s))) ∧
      List.Forall₂ (SlotSim s P) (propsForces simps fuel (some d) ps sls).2 (propsForces simps fuel (some d') ps' sls').2 := by
  have h0 : PropAcc.sim s {} = {} := by
    simp only [PropAcc.sim, PropAcc.mk.injEq, Option.map_none, and_true]
    constructor <;> ext <;> simp
  have := propsLoop_sim hR h {}
  rw [h0] at this
  unfold propsForces
  revert this
  generalize propsLoop simps fuel (some d') ps' sls' _ = B
  generalize propsLoop simps fuel (some d) ps sls _ = A
  rintro ⟨k1, k2⟩
  rcases A with ⟨e | ⟨a, outs⟩, A2⟩ <;> rcases B with ⟨e' | ⟨b, outs'⟩, B2⟩ <;> simp [Except.map] at k1
  · subst k1
    exact ⟨rfl, k2⟩
  · obtain ⟨rfl, rfl⟩ := k1
    simp only [hf.alpha, hf.beta]
    cases freestream 1 (d.alpha.getD 0) (d.beta.getD 0) with
    | none => exact ⟨rfl, k2⟩
    | some u =>
      simp only
      have : (a.sim s).F = s.a • a.F := rfl
      rw [this, rotateForces_smul]
      rcases rotateForces u a.F with e | ⟨L, D, S⟩
      · exact ⟨rfl, k2⟩
      · rcases hl : a.last with _ | ⟨T, l⟩
        · simp only [Except.map, PropAcc.sim, hl, Option.map_none]
          exact ⟨trivial, k2⟩
        · simp only [Except.map, PropAcc.sim, hl, Option.map_some, PropTotals.sim, Loads.sim]
          refine ⟨?_, k2⟩
          simp [Loads.F]

theorem pointVel_sim (fl : PFlow) (p : V3) : ∀ {l : List (PropM ι × PropOut)} {l' : List (PropM ι' × PropOut)},
    List.Forall₂ (fun a b => SimM s a.1 b.1 ∧ b.2.n = s.r * a.2.n ∧ b.2.c = a.2.c) l l' →
    pointVel (fl.sim s) (s.l • p + s.t) l' = (pointVel fl p l).map (s.k • ·) := by
  intro l l' h
  induction h with
  | nil => simp [pointVel, PFlow.sim, Except.map, mul_smul]
  | @cons a b l l' h1 h2 ih =>
    obtain ⟨M, o⟩ := a
    obtain ⟨M', o'⟩ := b
    obtain ⟨hM, hn, hc⟩ := h1
    simp only at hM hn hc
    unfold pointVel
    rw [hn, hc, show (fl.sim s).V = s.k * fl.V from rfl, propVel_sim hM, ih]
    cases propVel M fl.V o.n o.c p with
    | error e => rfl
    | ok v =>
      cases pointVel fl p l with
      | error e => rfl
      | ok w =>
        simp [Except.map, bind, Except.bind, pure, Except.pure, smul_add]

theorem propsSolve_sim (σ : ι ≃ ι') (hf : FlowSim s d d') (hR : RunsAlike simps fuel s P d d' ps ps')
    {pts : Option (ι → V3)} {pts' : Option (ι' → V3)} (hp : pts' = pts.map fun f i' => s.l • f (σ.symm i') + s.t)
    {sls : List (PropSlot ι)} {sls' : List (PropSlot ι')} (h : List.Forall₂ (SlotSim s P) sls sls') :
    (propsSolve simps fuel pts' (some d') ps' sls').1 =
        (propsSolve simps fuel pts (some d) ps sls).1.map (fun r => (r.1.sim s,
          r.2.map fun f i' => (s.m * (f (σ.symm i')).1, s.k • (f (σ.symm i')).2))) ∧
      List.Forall₂ (SlotSim s P) (propsSolve simps fuel pts (some d) ps sls).2 (propsSolve simps fuel pts' (some d') ps' sls').2 := by
  have hlen : ∀ {t outs s2}, propsForces simps fuel (some d) ps sls = (.ok (t, outs), s2) → outs.length = s2.length := by
    intro t outs s2 hq
    unfold propsForces at hq
    rcases hl : propsLoop simps fuel (some d) ps sls {} with ⟨e | ⟨a, os⟩, s3⟩
    · rw [hl] at hq; cases hq
    · rw [hl] at hq
      have := propsLoop_length simps fuel (some d) ps sls {} hl
      simp only at hq
      split at hq <;> try cases hq
      split at hq <;> try cases hq
      exact this
  have := propsForces_sim hf hR h
  unfold propsSolve
  rw [bind_def, bind_def]
  revert this hlen
  generalize propsForces simps fuel (some d') ps' sls' = B
  generalize propsForces simps fuel (some d) ps sls = A
  rintro hlen ⟨k1, k2⟩
  rcases A with ⟨e | ⟨a, outs⟩, A2⟩ <;> rcases B with ⟨e' | ⟨b, outs'⟩, B2⟩ <;> simp [Except.map] at k1
  · subst k1
    exact ⟨rfl, k2⟩
  · obtain ⟨rfl, rfl⟩ := k1
    have hl := hlen rfl
    subst hp
    rcases pts with _ | f
    · exact ⟨rfl, k2⟩
    · simp only [Option.map_some]
      rw [propFlow_sim hf]
      cases propFlow (some d) with
      | error e => exact ⟨rfl, k2⟩
      | ok fl =>
        simp only [Except.map, lift_ok_bind, get_bind]
        have hz : List.Forall₂ (fun (a : PropM ι × PropOut) (b : PropM ι' × PropOut) => SimM s a.1 b.1 ∧ b.2.n = s.r * a.2.n ∧ b.2.c = a.2.c)
            ((A2.map PropSlot.model).zip outs) ((B2.map PropSlot.model).zip (outs.map (PropOut.sim s))) := by
          clear hlen
          change List.Forall₂ (SlotSim s P) A2 B2 at k2
          change outs.length = A2.length at hl
          induction k2 generalizing outs with
          | nil => exact .nil
          | cons g1 g2 ih =>
            cases outs with
            | nil => exact .nil
            | cons o t =>
              simp only [List.length_cons, Nat.add_right_cancel_iff] at hl
              exact .cons ⟨g1.model, rfl, rfl⟩ (ih t hl)
        have hv : ∀ p, pointVel (fl.sim s) (s.l • p + s.t) ((B2.map PropSlot.model).zip (outs.map (PropOut.sim s))) =
            (pointVel fl p ((A2.map PropSlot.model).zip outs)).map (s.k • ·) := fun p => pointVel_sim fl p hz
        simp only [hv]
        have ht : ∀ r : Except PyErr V3, (r.map (s.k • ·)).toBool = r.toBool := by intro r; cases r <;> rfl
        have hg : ∀ r : Except PyErr V3, (r.map (s.k • ·)).toOption.getD 0 = s.k • (r.toOption.getD 0) := by
          intro r; cases r <;> simp [Except.map, Except.toOption]
        by_cases hall : ∀ i, (pointVel fl (f i) ((A2.map PropSlot.model).zip outs)).toBool
        · rw [if_pos hall, if_pos (fun i' => by rw [hv, ht]; exact hall _)]
          refine ⟨?_, k2⟩
          simp only [pure_run, hg]
          rfl
        · rw [if_neg hall, if_neg (fun q => hall fun i => by have := q (σ i); rw [hv, ht] at this; simpa using this)]
          exact ⟨rfl, k2⟩

end

/-! ### `solve` on two objects -/

/-- the velocity field of the other aircraft -/
noncomputable def fieldSim {ι ι' : Type} (s : Scl) (σ : ι ≃ ι') (f : ι → ℝ × V3) (i' : ι') : ℝ × V3 :=
  (s.m * (f (σ.symm i')).1, s.k • (f (σ.symm i')).2)

section
variable {ι ι' : Type} {s : Scl}

theorem Loads.sim_add (a b : Loads) : (a.sim s).add (b.sim s) = (a.add b).sim s := by
  simp only [Loads.sim, Loads.add, Loads.mk.injEq, Loads.F, cross]
  refine ⟨?_, ?_, ?_, ?_, ?_, ?_, ?_, ?_, ?_⟩ <;> ring

theorem Loads.sim_zero : Loads.zero.sim s = Loads.zero := by simp [Loads.sim, Loads.zero, Loads.F]

/-- `solve` gives similar results if its two parts do. -/
theorem solveParts_sim {B : Backend ι} {B' : Backend ι'} (σ : ι ≃ ι') {ps : Option B.π} {ps' : Option B'.π}
    (hP : B'.hasProps = B.hasProps) (hW : B'.hasWings = B.hasWings)
    {w : World B} {w' : World B'} {d : AeroDict ι} {d' : AeroDict ι'} (hd : w.aero = some d) (hd' : w'.aero = some d')
    (R : B.σ → B'.σ → Prop) (hR : R w.st w'.st)
    (hp : Outcome (fun r r' => r'.1 = r.1.sim s ∧ r'.2 = r.2.map (fieldSim s σ))
        (B.propSolve d ps w.st).1 (B'.propSolve d' ps' w'.st).1 ∧
      R (B.propSolve d ps w.st).2 (B'.propSolve d' ps' w'.st).2)
    (hw : ∀ f f' st st', (f = d.localState ∧ f' = d'.localState ∨ ∃ g, f = some g ∧ f' = some (fieldSim s σ g)) → R st st' →
      Outcome (fun S S' => S'.total = S.total.sim s) (B.wingSolve { d with localState := f } w.ctrl st).1
        (B'.wingSolve { d' with localState := f' } w'.ctrl st').1 ∧
      R (B.wingSolve { d with localState := f } w.ctrl st).2
        (B'.wingSolve { d' with localState := f' } w'.ctrl st').2) :
    Outcome (fun r r' => r'.2.2 = r.2.2.sim s) (solveParts ps w).1 (solveParts ps' w').1 ∧
      R (solveParts ps w).2.st (solveParts ps' w').2.st := by
  have htot : ∀ (pr : Option PropTotals) (S : Option (Sol ι)) (S' : Option (Sol ι')),
      S'.map (·.total) = (S.map (·.total)).map (Loads.sim s) →
      totalOf (pr.map (PropTotals.sim s)) S' = (totalOf pr S).sim s := by
    intro pr S S' hs
    unfold totalOf
    rw [hs, ← Loads.sim_add]
    cases pr <;> cases S <;> simp [Loads.sim_zero, PropTotals.sim]
  -- the wing part and what follows
  have wing : ∀ (pr : Option PropTotals) (f : Option (ι → ℝ × V3)) (f' : Option (ι' → ℝ × V3)) (w1 : World B) (w1' : World B'),
      (f = d.localState ∧ f' = d'.localState ∨ ∃ g, f = some g ∧ f' = some (fieldSim s σ g)) → w1.ctrl = w.ctrl → w1'.ctrl = w'.ctrl →
      R w1.st w1'.st → w1.aero = some { d with localState := f } → w1'.aero = some { d' with localState := f' } →
      Outcome (fun r r' => r'.2.2 = r.2.2.sim s)
        ((solveWings >>= fun wing => (do
            Act.change fun w => { w with objs := w.objs ++ [totalOf pr wing] }
            return (wing, pr, totalOf pr wing)) : Act (World B) _) w1).1
        ((solveWings >>= fun wing => (do
            Act.change fun w => { w with objs := w.objs ++ [totalOf (pr.map (PropTotals.sim s)) wing] }
            return (wing, pr.map (PropTotals.sim s), totalOf (pr.map (PropTotals.sim s)) wing)) : Act (World B') _) w1').1 ∧
      R ((solveWings >>= fun wing => (do
            Act.change fun w => { w with objs := w.objs ++ [totalOf pr wing] }
            return (wing, pr, totalOf pr wing)) : Act (World B) _) w1).2.st
        ((solveWings >>= fun wing => (do
            Act.change fun w => { w with objs := w.objs ++ [totalOf (pr.map (PropTotals.sim s)) wing] }
            return (wing, pr.map (PropTotals.sim s), totalOf (pr.map (PropTotals.sim s)) wing)) : Act (World B') _) w1').2.st := by
    intro pr f f' w1 w1' hf hc hc' hr ha ha'
    rw [bind_def, bind_def]
    unfold solveWings
    rw [hW]
    by_cases hw0 : B.hasWings = true
    · rw [if_pos hw0, if_pos hw0, get_bind, get_bind, bind_def, bind_def]
      unfold onSolver
      rw [ha, ha', hc, hc', Option.getD_some, Option.getD_some]
      have := hw f f' _ _ hf hr
      revert this
      generalize B.wingSolve _ w.ctrl w1.st = A
      generalize B'.wingSolve _ w'.ctrl w1'.st = A'
      intro this
      obtain ⟨this, hr2⟩ := this
      rcases A with ⟨e | S, s1⟩ <;> rcases A' with ⟨e' | S', s1'⟩ <;> simp only [Outcome] at this
      · exact ⟨this, hr2⟩
      · exact ⟨htot pr (some S) (some S') (by simp [this]), hr2⟩
    · rw [if_neg hw0, if_neg hw0]
      exact ⟨htot pr none none rfl, hr⟩
  unfold solveParts
  rw [bind_of_ok (show getAero id w = (.ok d, w) by unfold getAero; rw [hd]; rfl),
    bind_of_ok (show getAero id w' = (.ok d', w') by unfold getAero; rw [hd']; rfl)]
  unfold solveProps
  rw [hP]
  by_cases hp0 : B.hasProps = true
  · simp only [hp0, if_true]
    rw [bind_def, bind_def, bind_def, bind_def]
    unfold onSolver
    revert hp
    generalize B.propSolve d ps w.st = A
    generalize B'.propSolve _ ps' w'.st = A'
    rintro ⟨g1, g2⟩
    rcases A with ⟨e | ⟨r, f⟩, s1⟩ <;> rcases A' with ⟨e' | ⟨r', f'⟩, s1'⟩ <;> simp only [Outcome] at g1
    · exact ⟨g1, g2⟩
    · obtain ⟨rfl, rfl⟩ := g1
      rcases f with _ | f
      · exact wing (some r) d.localState d'.localState { w with st := s1 } { w' with st := s1' } (.inl ⟨rfl, rfl⟩) rfl rfl g2 hd hd'
      · simp only [Option.map_some]
        unfold setAero
        simp only [bind_def, hd, hd', pure_run]
        exact wing (some r) (some f) _ { w with st := s1, aero := _ } { w' with st := s1', aero := _ } (.inr ⟨f, rfl, rfl⟩) rfl rfl g2 rfl rfl
  · simp only [hp0]
    exact wing none d.localState d'.localState w w' (.inl ⟨rfl, rfl⟩) rfl rfl hR hd hd'

end

/-- `o'` is an object for the other aircraft, as far as `solve` can tell; `D` is the flow it gets -/
structure ObjSim (s : Scl) (o o' : Analyser) (p p' : Plane) (σ : Fin (sectionsOf o.wing) ≃ Fin (sectionsOf o'.wing)) : Prop where
  props : p'.props.isEmpty = p.props.isEmpty
  wings : p'.wings.isEmpty = p.wings.isEmpty
  cg : p'.cg = s.l • p.cg + s.t + s.e
  wing : o'.wing.isSome = o.wing.isSome
  slots : o'.slots.isSome = o.slots.isSome
  points : pointsOf o'.wing = (pointsOf o.wing).map (fun f i' => s.l • f (σ.symm i') + s.t)

/-- the states of such objects: the same control deflections, propellers in related states -/
def StSim {ι ι' : Type} (s : Scl) (P : PropSt → PropSt → Prop) (σ : ι ≃ ι') (st : LLState ι × List (PropSlot ι)) (st' : LLState ι' × List (PropSlot ι')) : Prop :=
  CtrlImage σ st.1.ctrl st'.1.ctrl ∧ List.Forall₂ (SlotSim s P) st.2 st'.2

theorem slotSim_withCg {ι ι' : Type} {s : Scl} {P : PropSt → PropSt → Prop} (cg : V3) {l : List (PropSlot ι)} {l' : List (PropSlot ι')}
    (h : List.Forall₂ (SlotSim s P) l l') :
    List.Forall₂ (SlotSim s P) (l.map (·.withCg cg)) (l'.map (·.withCg (s.l • cg + s.t + s.e))) := by
  induction h with
  | nil => exact .nil
  | cons h1 _ ih => exact .cons ⟨h1.name, { h1.model with cg := rfl }, h1.st⟩ ih

theorem ObjSim.muSolve {s : Scl} {o o' : Analyser} {p p' : Plane} {σ : Fin (sectionsOf o.wing) ≃ Fin (sectionsOf o'.wing)} (h : ObjSim s o o' p p' σ)
    {P : PropSt → PropSt → Prop} {simps : List ℝ → List ℝ → ℝ} {fuel : ℕ} {bad : _} {bad' : _} {w : World (o.backend p simps fuel bad)}
    {w' : World (o'.backend p' simps fuel bad')} {d : AeroDict (Fin (sectionsOf o.wing))} {d' : AeroDict (Fin (sectionsOf o'.wing))}
    {c : Option CtrlDict} (hf : FlowSim s d d')
    (ha : w.aero = some d) (hc : w.ctrl = c) (ha' : w'.aero = some d') (hc' : w'.ctrl = c)
    (ps ps' : Option PropDict) (hR : RunsAlike simps fuel s P d d' (ps.getD []) (ps'.getD [])) (hst : StSim s P σ w.st w'.st)
    (hw : ∀ f f' st st', (f = d.localState ∧ f' = d'.localState ∨ ∃ g, f = some g ∧ f' = some (fieldSim s σ g)) →
      CtrlImage σ st.ctrl st'.ctrl → o.wing.isSome = true →
      Outcome (fun S S' => S'.total = S.total.sim s) (llSolve (geomOf p.cg o.wing) st "linear" (some { d with localState := f }) c).1
        (llSolve (geomOf p'.cg o'.wing) st' "linear" (some { d' with localState := f' }) c).1 ∧
      CtrlImage σ (llSolve (geomOf p.cg o.wing) st "linear" (some { d with localState := f }) c).2.ctrl
        (llSolve (geomOf p'.cg o'.wing) st' "linear" (some { d' with localState := f' }) c).2.ctrl) :
    Outcome (fun T T' => T' = T.sim s) (muSolve ps w).1 (muSolve ps' w').1 ∧ StSim s P σ (muSolve ps w).2.st (muSolve ps' w').2.st := by
  have main := solveParts_sim (s := s) (B := o.backend p simps fuel bad) (B' := o'.backend p' simps fuel bad') σ (ps := ps) (ps' := ps')
    (by show (!p'.props.isEmpty) = !p.props.isEmpty; rw [h.props])
    (by show (!p'.wings.isEmpty) = !p.wings.isEmpty; rw [h.wings])
    (w := w) (w' := w') (d := d) (d' := d') ha ha' (StSim s P σ) hst ?_ ?_
  · unfold Verif.muSolve
    rw [get_bind, get_bind, if_pos (show aeroGiven w = true by simpa [aeroGiven, ha] using hf.given),
      if_pos (show aeroGiven w' = true by simpa [aeroGiven, ha'] using hf.given'), bind_def, bind_def]
    revert main
    generalize solveParts ps w = A
    generalize solveParts ps' w' = A'
    rintro ⟨main, m2⟩
    rcases A with ⟨e | ⟨x, y, z⟩, s1⟩ <;> rcases A' with ⟨e' | ⟨x', y', z'⟩, s1'⟩ <;> simp only [Outcome] at main
    · exact ⟨main, m2⟩
    · exact ⟨main, m2⟩
  · obtain ⟨h1, h2⟩ := hst
    generalize w.st = st at *
    generalize w'.st = st' at *
    obtain ⟨l, sl⟩ := st
    obtain ⟨l', sl'⟩ := st'
    simp only [Analyser.backend, Analyser.backendOf] at *
    rw [h.slots]
    by_cases hsome : o.slots.isSome = true
    · simp only [hsome, if_true]
      have := propsSolve_sim σ hf hR (pts := if !p.wings.isEmpty then pointsOf o.wing else none)
        (pts' := if !p'.wings.isEmpty then pointsOf o'.wing else none) (by rw [h.wings]; split_ifs; exacts [h.points, rfl])
        (slotSim_withCg p.cg h2)
      rw [← h.cg] at this
      revert this
      generalize propsSolve simps fuel _ (some d) (ps.getD []) _ = A
      generalize propsSolve simps fuel _ (some d') (ps'.getD []) _ = A'
      rintro ⟨k1, k2⟩
      rcases A with ⟨e | r, s1⟩ <;> rcases A' with ⟨e' | r', s1'⟩ <;> simp [Except.map] at k1
      · exact ⟨k1.symm, h1, k2⟩
      · exact ⟨by subst k1; exact ⟨rfl, rfl⟩, h1, k2⟩
    · simp only [hsome]
      exact ⟨rfl, h1, h2⟩
  · rintro f f' ⟨st, sl⟩ ⟨st', sl'⟩ hff ⟨h1, h2⟩
    rw [hc, hc']
    simp only [Analyser.backend, Analyser.backendOf]
    rw [h.wing]
    by_cases hi : o.wing.isSome = true
    · simp only [hi, if_true]
      have := hw f f' st st' hff h1 hi
      exact ⟨this.1, this.2, h2⟩
    · simp only [hi]
      exact ⟨rfl, h1, h2⟩

end Verif
