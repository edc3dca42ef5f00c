import Verif.Lemmas.SolveSim
import Verif.Thm.LLKernel

/-!
# Moving the CG of an aircraft with wings and propellers (C120)
-/

namespace Verif
open V3 Act

/-- the CG moves by `δ`, nothing else changes -/
noncomputable def cgScl (δ : V3) : Scl := ⟨1, 1, 1, δ, one_pos, one_pos, 0⟩

theorem cgScl_a (δ : V3) : (cgScl δ).a = 1 := by simp [Scl.a, cgScl]

theorem fieldSim_cg {ι : Type} (δ : V3) (f : ι → ℝ × V3) : fieldSim (cgScl δ) (Equiv.refl ι) f = f := by
  funext i; simp [fieldSim, cgScl]

theorem flowSim_cg {ι : Type} (δ : V3) {d : AeroDict ι} (hd : d.truthy = true) : FlowSim (cgScl δ) d d :=
  ⟨hd, hd, by simp [cgScl], by simp [cgScl], rfl, rfl⟩

theorem simM_cg {ι : Type} {δ : V3} {M : PropM ι} {cg' : V3} (h : cg' = M.cg + δ) : SimM (cgScl δ) M { M with cg := cg' } where
  nodes := rfl
  d := by simp [cgScl]; rfl
  blades := rfl
  stn := by funext i; simp [cgScl, Stn.scale]
  motor := rfl
  units := rfl
  pos := by simp [cgScl]
  fwd := rfl
  rot := rfl
  cg := by simp [cgScl, h]

theorem runsAlike_cg {ι : Type} (simps : List ℝ → List ℝ → ℝ) (fuel : ℕ) (δ : V3) {d : AeroDict ι} (hd : d.truthy = true) (ps : PropDict) :
    RunsAlike simps fuel (cgScl δ) (fun st st' => st' = st) d d ps ps := by
  intro sl sl' h
  unfold slotRun
  rw [h.name, h.st]
  cases localPS ps sl.name with
  | error e => exact ⟨rfl, rfl⟩
  | ok pd => exact runProp_cg rfl rfl rfl h.model simps fuel (flowSim_cg δ hd) pd sl.st

/-- the wings, in a state with the same control deflections -/
theorem llSolve_cg {n : ℕ} (G : LLGeom (Fin n)) (δ : V3) {st st' : LLState (Fin n)} (hst : st'.ctrl = st.ctrl) (d : AeroDict (Fin n))
    (hd : d.truthy = true) (hr : d.roll = none ∧ d.pitch = none ∧ d.yaw = none) (c : Option CtrlDict) :
    Outcome (fun S S' => S'.total = S.total.sim (cgScl δ)) (llSolve G st "linear" (some d) c).1
      (llSolve { G with cg := G.cg + δ } st' "linear" (some d) c).1 ∧
    (llSolve { G with cg := G.cg + δ } st' "linear" (some d) c).2.ctrl = (llSolve G st "linear" (some d) c).2.ctrl := by
  have harr : arrOf { G with cg := G.cg + δ } d = arrOf G d := by
    have : d.hasRates = false := by simp [AeroDict.hasRates, hr]
    unfold arrOf rotArr
    simp only [this]
    rfl
  have hp : (processCtrl { G with cg := G.cg + δ } st' c).ctrl = (processCtrl G st c).ctrl := processCtrl_ctrl G st st' c hst
  have e : (llSolve { G with cg := G.cg + δ } st' "linear" (some d) c).1 = (llSolve { G with cg := G.cg + δ } st "linear" (some d) c).1 := by
    rw [llSolve_aero _ _ _ _ hd, llSolve_aero _ _ _ _ hd, processCtrl_ctrl _ st st' c hst]
  constructor
  · rw [e]
    refine (C28_cg_transfer G st "linear" (some d) c δ (by rintro _ ⟨⟩; exact hr)).mono ?_
    rintro R R' - - ⟨-, -, -, -, -, -, h1, -, -, h2, -, -, h3⟩
    simp only [Loads.F, V3.mk.injEq] at h2
    simp only [Prod.mk.injEq] at h1
    have m1 := congrArg V3.x h3
    have m2 := congrArg V3.y h3
    have m3 := congrArg V3.z h3
    simp only [Loads.M, sub_x, sub_y, sub_z] at m1 m2 m3
    ext <;> simp only [Loads.sim, cgScl_a, one_mul]
    exacts [h1.1, h1.2.1, h1.2.2, h2.1, h2.2.1, h2.2.2, by rw [m1]; simp [cgScl], by rw [m2]; simp [cgScl], by rw [m3]; simp [cgScl]]
  · rw [llSolve_ctrl_after _ _ _ _ hd, llSolve_ctrl_after _ _ _ _ hd, harr, hp]
    cases arrOf G d
    · exact hst
    · rfl

theorem open_cg {table : String → ℝ → ℝ} {mem : String → ℕ → ℕ → Option ℝ} {p : Plane} {o : Analyser} (h : openMachUp table mem p = .ok o) (cg' : V3) :
    openMachUp table mem { p with cg := cg' } = .ok ⟨o.wing, o.slots.map fun s => s.map (·.withCg cg')⟩ := by
  have hwp : mkWingPart { p with cg := cg' } = mkWingPart p := mkWingPart_congr rfl rfl rfl rfl rfl
  unfold openMachUp at h ⊢
  rw [hwp]
  cases hw : mkWingPart p with
  | error e => rw [hw] at h; cases h
  | ok w =>
    rw [hw] at h
    simp only [bind, Except.bind] at h ⊢
    by_cases hp : p.props = []
    · rw [if_pos hp] at h ⊢
      cases h
      rfl
    · rw [if_neg hp] at h ⊢
      cases hs : openProps table mem p (pointsOf w) with
      | error e => rw [hs] at h; cases h
      | ok s =>
        rw [hs] at h
        cases h
        rw [openProps_cg, hs]
        rfl

theorem openProps_models {ι : Type} {table : String → ℝ → ℝ} {mem : String → ℕ → ℕ → Option ℝ} {p : Plane} {pts : Option (ι → V3)}
    {s : List (PropSlot ι)} (h : openProps table mem p pts = .ok s) : ∀ sl ∈ s, sl.model.cg = p.cg := by
  have := openProps_cg table mem p p.cg pts
  rw [show ({ p with cg := p.cg } : Plane) = p from rfl, h] at this
  simp only [Except.map, Except.ok.injEq] at this
  intro sl hsl
  rw [this] at hsl
  obtain ⟨x, -, rfl⟩ := List.mem_map.1 hsl
  rfl

/-- **C120.** Two aircraft that differ in the location of their CG only, `δ` apart: a `MachUp` object can be constructed for the
second one iff it can for the first one.  Make a sequence of `solve` calls without rotation rates on both, with the same flow,
controls and propeller states.  Each call on the second one fails with the same exception as the one on the first one, or gives
the same forces `F` and the moments `M - δ × F`. -/
theorem C120_cg (table : String → ℝ → ℝ) (mem : String → ℕ → ℕ → Option ℝ) (simps : List ℝ → List ℝ → ℝ) (fuel : ℕ) (p : Plane) (δ : V3) :
    ((∃ o, openMachUp table mem p = .ok o) ↔ ∃ o', openMachUp table mem { p with cg := p.cg + δ } = .ok o') ∧
    ∀ o, openMachUp table mem p = .ok o → ∃ slots', openMachUp table mem { p with cg := p.cg + δ } = .ok ⟨o.wing, slots'⟩ ∧
      ∀ (bad bad' : _) (calls : List (AeroDict (Fin (sectionsOf o.wing)) × Option CtrlDict × Option PropDict)),
        (∀ k ∈ calls, k.1.truthy = true ∧ k.1.roll = none ∧ k.1.pitch = none ∧ k.1.yaw = none) →
        List.Forall₂ (Outcome fun T T' => (T'.FL, T'.FD, T'.FS) = (T.FL, T.FD, T.FS) ∧ T'.F = T.F ∧ T'.M = T.M - cross δ T.F)
          (solveSeq (o.fresh p simps fuel bad none none) (calls.map fun k => ⟨some k.1, k.2.1, k.2.2⟩))
          (solveSeq (Analyser.fresh ⟨o.wing, slots'⟩ { p with cg := p.cg + δ } simps fuel bad' none none)
            (calls.map fun k => ⟨some k.1, k.2.1, k.2.2⟩)) := by
  refine ⟨⟨fun ⟨o, ho⟩ => ⟨_, open_cg ho _⟩, fun ⟨o, ho⟩ => ⟨_, open_cg ho p.cg⟩⟩, fun o ho => ⟨_, open_cg ho _, fun bad bad' calls hd => ?_⟩⟩
  obtain ⟨hw, hs⟩ := slots_cases ho
  have hslots : List.Forall₂ (SlotSim (cgScl δ) fun st st' => st' = st) (o.slots.getD [])
      ((o.slots.map fun s => s.map (·.withCg (p.cg + δ))).getD []) := by
    rcases hs with ⟨-, q1⟩ | ⟨-, s, q1, q2⟩
    · rw [q1]; exact .nil
    · rw [q1]
      simp only [Option.map_some, Option.getD_some]
      have hcg := openProps_models q2
      clear q1 q2
      induction s with
      | nil => exact .nil
      | cons a t ih =>
        exact .cons ⟨rfl, simM_cg (by rw [hcg a (by simp)]), rfl⟩ (ih fun sl h => hcg sl (by simp [h]))
  have hO : ObjSim (cgScl δ) o ⟨o.wing, o.slots.map fun s => s.map (·.withCg (p.cg + δ))⟩ p { p with cg := p.cg + δ } (Equiv.refl _) :=
    { props := rfl
      wings := rfl
      cg := by simp [cgScl]
      wing := rfl
      slots := by simp
      points := by
        show pointsOf o.wing = _
        cases pointsOf o.wing with
        | none => rfl
        | some f => simp [cgScl] }
  have key : ∀ (calls : List (AeroDict (Fin (sectionsOf o.wing)) × Option CtrlDict × Option PropDict)) (w : World (o.backend p simps fuel bad))
      (w' : World (Analyser.backend ⟨o.wing, o.slots.map fun s => s.map (·.withCg (p.cg + δ))⟩ { p with cg := p.cg + δ } simps fuel bad')),
      (∀ k ∈ calls, k.1.truthy = true ∧ k.1.roll = none ∧ k.1.pitch = none ∧ k.1.yaw = none) →
      StSim (cgScl δ) (fun st st' => st' = st) (Equiv.refl _) w.st w'.st →
      List.Forall₂ (Outcome fun T T' => (T'.FL, T'.FD, T'.FS) = (T.FL, T.FD, T.FS) ∧ T'.F = T.F ∧ T'.M = T.M - cross δ T.F)
        (solveSeq w (calls.map fun k => ⟨some k.1, k.2.1, k.2.2⟩)) (solveSeq w' (calls.map fun k => ⟨some k.1, k.2.1, k.2.2⟩)) := by
    intro calls
    induction calls with
    | nil => intro w w' _ _; exact .nil
    | cons k t ih =>
      intro w w' hd hst
      obtain ⟨ht, hr⟩ := hd k (by simp)
      have := hO.muSolve (P := fun st st' => st' = st) (w := { w with aero := some k.1, ctrl := k.2.1 }) (w' := { w' with aero := some k.1, ctrl := k.2.1 })
        (d := k.1) (d' := k.1) (c := k.2.1) (flowSim_cg δ ht) rfl rfl rfl rfl k.2.2 k.2.2 (runsAlike_cg simps fuel δ ht _) hst
        (by
          rintro f f' st st' hff hC hi
          have hf : f' = f ∧ ({ k.1 with localState := f } : AeroDict (Fin (sectionsOf o.wing))).truthy = true := by
            rcases hff with ⟨rfl, rfl⟩ | ⟨g, rfl, rfl⟩
            · exact ⟨rfl, ht⟩
            · exact ⟨by rw [fieldSim_cg], by simp [AeroDict.truthy]⟩
          rw [hf.1]
          have hc : st'.ctrl = st.ctrl := by
            have h1 : st'.ctrl.delta = st.ctrl.delta := funext hC.delta
            have h2 : st'.ctrl.eff = st.ctrl.eff := funext hC.eff
            cases hs' : st'.ctrl; cases hs : st.ctrl
            rw [hs, hs'] at h1 h2
            simp only at h1 h2
            rw [h1, h2]
          have hG : geomOf (p.cg + δ) o.wing = { geomOf p.cg o.wing with cg := (geomOf p.cg o.wing).cg + δ } := by
            cases ho : o.wing with
            | none => rw [ho] at hi; cases hi
            | some W => rfl
          rw [show geomOf ({ p with cg := p.cg + δ } : Plane).cg (Analyser.wing ⟨o.wing, o.slots.map fun s => s.map (·.withCg (p.cg + δ))⟩) =
            geomOf (p.cg + δ) o.wing from rfl, hG]
          obtain ⟨g1, g2⟩ := llSolve_cg (geomOf p.cg o.wing) δ hc { k.1 with localState := f } hf.2 hr k.2.1
          exact ⟨g1, ⟨fun i => congrFun (congrArg Ctrl.delta g2) i, fun i => congrFun (congrArg Ctrl.eff g2) i⟩⟩)
      refine .cons (this.1.mono ?_) (ih _ _ (fun k hk => hd k (by simp [hk])) this.2)
      rintro T T' - - rfl
      simp only [Loads.sim, cgScl_a, one_mul]
      refine ⟨trivial, rfl, ?_⟩
      ext <;> simp [Loads.M, Loads.F, cgScl]
  exact key calls _ _ hd ⟨⟨fun _ => rfl, fun _ => rfl⟩, hslots⟩

/-- C120: both objects exist for a wingless aircraft with one propeller, and both solves succeed -/
example : ∃ (mem : String → ℕ → ℕ → Option ℝ) (o : Analyser) (slots' : _),
    openMachUp (fun _ _ => 0) mem rotor = .ok o ∧ openMachUp (fun _ _ => 0) mem { rotor with cg := rotor.cg + ⟨0, 0, 1⟩ } = .ok ⟨o.wing, slots'⟩ ∧
    ∀ bad bad', ∃ T T',
      (muSolve (some [("J", .num 0.5)]) (o.fresh rotor (fun _ _ => 1) 1 bad (some { Vmag := some 10, rho := some 1 }) none)).1 = .ok T ∧
      (muSolve (some [("J", .num 0.5)]) (Analyser.fresh ⟨o.wing, slots'⟩ { rotor with cg := rotor.cg + ⟨0, 0, 1⟩ } (fun _ _ => 1) 1 bad'
        (some { Vmag := some 10, rho := some 1 }) none)).1 = .ok T' ∧
      T.MX ≠ 0 ∧ T'.M = T.M - cross ⟨0, 0, 1⟩ T.F := by
  obtain ⟨mem, o, ho, h⟩ := rotor_solve
  obtain ⟨slots', ho', hk⟩ := (C120_cg (fun _ _ => 0) mem (fun _ _ => 1) 1 rotor ⟨0, 0, 1⟩).2 o ho
  refine ⟨mem, o, slots', ho, ho', fun bad bad' => ?_⟩
  obtain ⟨T, w', hT, hx⟩ := h bad
  have h2 := (List.forall₂_cons.1 (hk bad bad' [({ Vmag := some 10, rho := some 1 }, none, some [("J", .num 0.5)])] (by simp [AeroDict.truthy]))).1
  have h3 : Outcome (fun T T' : Loads => (T'.FL, T'.FD, T'.FS) = (T.FL, T.FD, T.FS) ∧ T'.F = T.F ∧ T'.M = T.M - cross ⟨0, 0, 1⟩ T.F)
    (muSolve (some [("J", .num 0.5)]) (o.fresh rotor (fun _ _ => 1) 1 bad (some { Vmag := some 10, rho := some 1 }) none)).1
    (muSolve (some [("J", .num 0.5)]) (Analyser.fresh ⟨o.wing, slots'⟩ { rotor with cg := rotor.cg + ⟨0, 0, 1⟩ } (fun _ _ => 1) 1 bad'
        (some { Vmag := some 10, rho := some 1 }) none)).1 := h2
  rw [hT] at h3 ⊢
  revert h3
  generalize (muSolve (some [("J", .num 0.5)]) (Analyser.fresh ⟨o.wing, slots'⟩ { rotor with cg := rotor.cg + ⟨0, 0, 1⟩ } (fun _ _ => 1) 1 bad'
        (some { Vmag := some 10, rho := some 1 }) none)).1 = y
  intro h3
  cases y with
  | error e => exact absurd h3 (by simp [Outcome])
  | ok T' => exact ⟨T, T', rfl, rfl, hx, h3.2.2⟩

end Verif
