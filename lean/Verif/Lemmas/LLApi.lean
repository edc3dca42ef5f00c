import Verif.Model.LLState
import Verif.Lemmas.LLSim

/-! Helper lemmas: from `llSolve` with explicit states to the kernel, and similarity at that level. -/

set_option linter.unusedSectionVars false

namespace Verif
open V3

variable {ι ι' : Type*} [Fintype ι] [DecidableEq ι] [Fintype ι'] [DecidableEq ι']

/-- the arrays that an explicit `aero_state` determines -/
structure Arr (ι : Type*) where
  v : Option (ι → V3)
  u : Option V3
  rho : ι → ℝ

noncomputable def rotArr (G : LLGeom ι) (d : AeroDict ι) (v : Option (ι → V3)) : Option (ι → V3) :=
  if d.hasRates then
    v.map fun v i => v i - cross ⟨d.roll.getD 0, d.pitch.getD 0, d.yaw.getD 0⟩ ((G.S i).rcp - G.cg)
  else v

noncomputable def arrOf (G : LLGeom ι) (d : AeroDict ι) : Except PyErr (Arr ι) :=
  match d.localState with
  | some ls =>
    .ok ⟨rotArr G d (some fun i => (ls i).2),
      (match d.Vmag with
        | some V => (freestream V (d.alpha.getD 0) (d.beta.getD 0)).bind normalise
        | none => (meanV fun i => (ls i).2).bind normalise),
      fun i => (ls i).1⟩
  | none =>
    match d.Vmag, d.rho with
    | some V, some rho =>
      .ok ⟨rotArr G d ((freestream V (d.alpha.getD 0) (d.beta.getD 0)).map fun w _ => w),
        (freestream V (d.alpha.getD 0) (d.beta.getD 0)).bind normalise, fun _ => rho⟩
    | _, _ => .error .runtime

noncomputable def ctrlOf (G : LLGeom ι) (c : CtrlDict) : Ctrl ι :=
  let delta : ι → ℝ := fun i =>
    (c.aileron.getD 0 * (G.S i).mixA + c.elevator.getD 0 * (G.S i).mixE +
      c.rudder.getD 0 * (G.S i).mixR + c.flap.getD 0 * (G.S i).mixF) * Real.pi / 180
  ⟨delta, fun i => deflEff (delta i)⟩

noncomputable def kern (G : LLGeom ι) (a : Arr ι) (C : Ctrl ι) : Except PyErr (Sol ι) :=
  match a.v, a.u with
  | some v, some u =>
    match solveLinear G.cg G.S ⟨v, u, a.rho⟩ C with
    | .ok R => .ok R
    | .error e => .error e.toPy
  | _, _ => .error .nonfinite

theorem runLinear_eq (G : LLGeom ι) (st : LLState ι) : runLinear G st = kern G ⟨st.v, st.u, st.rho⟩ st.ctrl := rfl

theorem processAero_explicit (G : LLGeom ι) (st : LLState ι) (d : AeroDict ι) (hd : d.truthy = true) :
    match arrOf G d with
    | .ok a => ∃ rt, processAero G st (some d) =
        (.ok (), { st with v := a.v, u := a.u, rho := a.rho, rates := rt })
    | .error e => processAero G st (some d) = (.error e, st) := by
  unfold arrOf processAero rotArr
  simp only [hd, if_true]
  cases hl : d.localState with
  | some ls =>
    simp only
    cases hV : d.Vmag with
    | none =>
      simp only
      split
      · exact ⟨_, rfl⟩
      · exact ⟨_, rfl⟩
    | some V =>
      simp only
      split
      · exact ⟨_, rfl⟩
      · exact ⟨_, rfl⟩
  | none =>
    simp only
    cases hV : d.Vmag with
    | none => rfl
    | some V =>
      cases hr : d.rho with
      | none => rfl
      | some rho =>
        simp only
        split
        · exact ⟨_, rfl⟩
        · exact ⟨_, rfl⟩

theorem processCtrl_explicit (G : LLGeom ι) (st : LLState ι) (c : CtrlDict) (hc : c.truthy = true) :
    processCtrl G st (some c) = { st with ctrl := ctrlOf G c } := by
  simp only [processCtrl, hc, if_true, ctrlOf]

theorem processCtrl_v (G : LLGeom ι) (st : LLState ι) (c : Option CtrlDict) :
    (processCtrl G st c).v = st.v ∧ (processCtrl G st c).u = st.u ∧ (processCtrl G st c).rho = st.rho := by
  unfold processCtrl
  split
  · split <;> exact ⟨rfl, rfl, rfl⟩
  · exact ⟨rfl, rfl, rfl⟩

/-- result of a linear solve in terms of the arrays after argument processing -/
theorem llSolve_linear (G : LLGeom ι) (st : LLState ι) (a : Option (AeroDict ι)) (c : Option CtrlDict) :
    (llSolve G st "linear" a c).1 =
      match processAero G st a with
      | (.error e, _) => .error e
      | (.ok (), st1) => runLinear G (processCtrl G st1 c) := by
  unfold llSolve
  split
  · simp_all
  · rename_i h
    rw [h]
    simp only [if_true]
    split <;> simp_all

theorem llSolve_explicit (G : LLGeom ι) (st : LLState ι) (d : AeroDict ι) (c : CtrlDict)
    (hd : d.truthy = true) (hc : c.truthy = true) :
    (llSolve G st "linear" (some d) (some c)).1 =
      (match arrOf G d with
       | .error e => .error e
       | .ok a => kern G a (ctrlOf G c)) := by
  rw [llSolve_linear]
  have h := processAero_explicit G st d hd
  cases ha : arrOf G d with
  | error e => rw [ha] at h; simp only at h; rw [h]
  | ok a =>
    rw [ha] at h
    obtain ⟨rt, h⟩ := h
    rw [h]
    simp only [processCtrl_explicit _ _ _ hc, runLinear_eq]

/-! ### similarity -/

/-- solution image including wind axes -/
structure FullImage (T : Sim) (τ : ℝ) (σ : ι ≃ ι') (R : Sol ι) (R' : Sol ι') : Prop extends SolImage T σ R R' where
  windI : R'.inviscid.FL = T.sgn * τ * (T.den * T.spd ^ 2 * T.len ^ 2) * R.inviscid.FL ∧
    R'.inviscid.FD = (T.den * T.spd ^ 2 * T.len ^ 2) * R.inviscid.FD ∧
    R'.inviscid.FS = τ * (T.den * T.spd ^ 2 * T.len ^ 2) * R.inviscid.FS
  windV : R'.viscous.FL = T.sgn * τ * (T.den * T.spd ^ 2 * T.len ^ 2) * R.viscous.FL ∧
    R'.viscous.FD = (T.den * T.spd ^ 2 * T.len ^ 2) * R.viscous.FD ∧
    R'.viscous.FS = τ * (T.den * T.spd ^ 2 * T.len ^ 2) * R.viscous.FS
  windT : R'.total.FL = T.sgn * τ * (T.den * T.spd ^ 2 * T.len ^ 2) * R.total.FL ∧
    R'.total.FD = (T.den * T.spd ^ 2 * T.len ^ 2) * R.total.FD ∧
    R'.total.FS = τ * (T.den * T.spd ^ 2 * T.len ^ 2) * R.total.FS
  LD : T.den ≠ 0 → R'.LD = R.LD.map (T.sgn * τ * ·)

theorem solOf_total (cg : V3) (S : ι → Section) (F : Flow ι) (C : Ctrl ι) (γ : ι → ℝ) :
    (solOf cg S F C γ).total = (solOf cg S F C γ).inviscid.add (solOf cg S F C γ).viscous := rfl

open Classical in
theorem solOf_LD (cg : V3) (S : ι → Section) (F : Flow ι) (C : Ctrl ι) (γ : ι → ℝ) :
    (solOf cg S F C γ).LD = if (solOf cg S F C γ).total.FD = 0 then none
        else some ((solOf cg S F C γ).total.FL / (solOf cg S F C γ).total.FD) := rfl

theorem solOf_fullImage (T : Sim) (σ : ι ≃ ι') {S : ι → Section} {S' : ι' → Section}
    {F : Flow ι} {F' : Flow ι'} {C : Ctrl ι} {C' : Ctrl ι'}
    {τ : ℝ} (hy : T.Q ey = τ • ey) (hτ : |τ| = 1)
    (hS : ∀ i, SecImage T (S i) (S' (σ i))) (hF : FlowImage T σ F F') (hC : CtrlImage σ C C')
    {γ : ι → ℝ} {γ' : ι' → ℝ} (hγ : ∀ i, γ' (σ i) = T.spd * T.len * γ i) (cg : V3) :
    FullImage T τ σ (solOf cg S F C γ) (solOf (T.pt cg) S' F' C' γ') := by
  have h := solOf_image T σ hS hF hC hγ cg
  have hI : (∑ i, secForce S' F' γ' (vInd S' F' γ') i) =
      (T.den * T.spd ^ 2 * T.len ^ 2) • T.Q (∑ i, secForce S F γ (vInd S F γ) i) := h.inviscid.F
  have hV : (∑ i, secDrag S' F' C' (vInd S' F' γ') i) =
      (T.den * T.spd ^ 2 * T.len ^ 2) • T.Q (∑ i, secDrag S F C (vInd S F γ) i) := h.viscous.F
  have wI : (solOf (T.pt cg) S' F' C' γ').inviscid.FL =
        T.sgn * τ * (T.den * T.spd ^ 2 * T.len ^ 2) * (solOf cg S F C γ).inviscid.FL ∧
      (solOf (T.pt cg) S' F' C' γ').inviscid.FD =
        (T.den * T.spd ^ 2 * T.len ^ 2) * (solOf cg S F C γ).inviscid.FD ∧
      (solOf (T.pt cg) S' F' C' γ').inviscid.FS =
        τ * (T.den * T.spd ^ 2 * T.len ^ 2) * (solOf cg S F C γ).inviscid.FS := by
    simp only [solOf, mkLoads, hI, hF.u, rotateAero_image T hy hτ]
    exact ⟨trivial, trivial, trivial⟩
  have wV : (solOf (T.pt cg) S' F' C' γ').viscous.FL =
        T.sgn * τ * (T.den * T.spd ^ 2 * T.len ^ 2) * (solOf cg S F C γ).viscous.FL ∧
      (solOf (T.pt cg) S' F' C' γ').viscous.FD =
        (T.den * T.spd ^ 2 * T.len ^ 2) * (solOf cg S F C γ).viscous.FD ∧
      (solOf (T.pt cg) S' F' C' γ').viscous.FS =
        τ * (T.den * T.spd ^ 2 * T.len ^ 2) * (solOf cg S F C γ).viscous.FS := by
    simp only [solOf, mkLoads, hV, hF.u, rotateAero_image T hy hτ]
    exact ⟨trivial, trivial, trivial⟩
  have wT : (solOf (T.pt cg) S' F' C' γ').total.FL =
        T.sgn * τ * (T.den * T.spd ^ 2 * T.len ^ 2) * (solOf cg S F C γ).total.FL ∧
      (solOf (T.pt cg) S' F' C' γ').total.FD =
        (T.den * T.spd ^ 2 * T.len ^ 2) * (solOf cg S F C γ).total.FD ∧
      (solOf (T.pt cg) S' F' C' γ').total.FS =
        τ * (T.den * T.spd ^ 2 * T.len ^ 2) * (solOf cg S F C γ).total.FS := by
    rw [solOf_total, solOf_total]
    simp only [Loads.add, wI, wV]
    refine ⟨?_, ?_, ?_⟩ <;> ring
  refine { toSolImage := h, windI := wI, windV := wV, windT := wT, LD := ?_ }
  intro hden
  have hk : T.den * T.spd ^ 2 * T.len ^ 2 ≠ 0 :=
    mul_ne_zero (mul_ne_zero hden (pow_ne_zero _ T.spd_pos.ne')) (pow_ne_zero _ T.len_pos.ne')
  rw [solOf_LD, solOf_LD, wT.1, wT.2.1]
  by_cases h0 : (solOf cg S F C γ).total.FD = 0
  · simp [h0]
  · rw [if_neg h0, if_neg (mul_ne_zero hk h0)]
    simp only [Option.map_some, Option.some.injEq]
    generalize T.den * T.spd ^ 2 * T.len ^ 2 = k at hk
    field_simp

theorem solveLinear_image (T : Sim) (σ : ι ≃ ι') {S : ι → Section} {S' : ι' → Section}
    {F : Flow ι} {F' : Flow ι'} {C : Ctrl ι} {C' : Ctrl ι'}
    {τ : ℝ} (hy : T.Q ey = τ • ey) (hτ : |τ| = 1)
    (hS : ∀ i, SecImage T (S i) (S' (σ i))) (hF : FlowImage T σ F F') (hC : CtrlImage σ C C') (cg : V3) :
    Outcome (FullImage T τ σ) (solveLinear cg S F C) (solveLinear (T.pt cg) S' F' C') := by
  have h1 : (InfluenceDefined S' F'.u ∧ RhsDefined S' F') ↔ (InfluenceDefined S F.u ∧ RhsDefined S F) := by
    rw [hF.u, influenceDefined_image T σ hS, rhsDefined_image T σ hS hF]
  unfold solveLinear
  by_cases hd : InfluenceDefined S F.u ∧ RhsDefined S F
  · rw [if_neg (not_not.mpr hd), if_neg (not_not.mpr (h1.mpr hd))]
    by_cases h0 : (aMat S F).det = 0
    · rw [if_pos h0, if_pos ((det_image T σ hS hF).mpr h0)]
      rfl
    · rw [if_neg h0, if_neg (fun h => h0 ((det_image T σ hS hF).mp h))]
      have hγ := gamma_image T σ hS hF hC h0
      have hv := vInd_image T σ hS hF hγ
      have h2 : PostDefined F' (vInd S' F' ((aMat S' F')⁻¹.mulVec (bVec S' F' C'))) ↔
          PostDefined F (vInd S F ((aMat S F)⁻¹.mulVec (bVec S F C))) := by
        unfold PostDefined
        rw [hF.u, windAxesDefined_image T hy hτ, forall_equiv σ]
        simp only [hv, nrm_smul_pos T.spd_pos, T.nrm_Q, ne_eq, mul_eq_zero, T.spd_pos.ne', false_or]
      by_cases hp : PostDefined F (vInd S F ((aMat S F)⁻¹.mulVec (bVec S F C)))
      · simp only [hp, h2.mpr hp, not_true_eq_false, if_false]
        exact solOf_fullImage T σ hy hτ hS hF hC hγ cg
      · have hp' : ¬ PostDefined F' (vInd S' F' ((aMat S' F')⁻¹.mulVec (bVec S' F' C'))) := fun h => hp (h2.mp h)
        simp only [hp, hp', not_false_eq_true, if_true]
        rfl
  · rw [if_pos hd, if_pos (fun h => hd (h1.mp h))]
    rfl

/-- correspondence of the input arrays -/
structure ArrImage (T : Sim) (σ : ι ≃ ι') (a : Arr ι) (a' : Arr ι') : Prop where
  v : (a.v = none ∧ a'.v = none) ∨
    ∃ v v', a.v = some v ∧ a'.v = some v' ∧ ∀ i, v' (σ i) = T.spd • T.Q (v i)
  u : a'.u = a.u.map T.Q
  rho : ∀ i, a'.rho (σ i) = T.den * a.rho i

theorem kern_image (T : Sim) (σ : ι ≃ ι') {G : LLGeom ι} {G' : LLGeom ι'} {a : Arr ι} {a' : Arr ι'}
    {C : Ctrl ι} {C' : Ctrl ι'} {τ : ℝ} (hy : T.Q ey = τ • ey) (hτ : |τ| = 1)
    (hS : ∀ i, SecImage T (G.S i) (G'.S (σ i))) (hcg : G'.cg = T.pt G.cg) (ha : ArrImage T σ a a')
    (hC : CtrlImage σ C C') : Outcome (FullImage T τ σ) (kern G a C) (kern G' a' C') := by
  unfold kern
  rw [ha.u]
  rcases ha.v with ⟨h, h'⟩ | ⟨v, v', h, h', hv⟩
  · rw [h, h']; rfl
  · rw [h, h']
    cases hu : a.u with
    | none => rfl
    | some u =>
      simp only [Option.map_some]
      have := solveLinear_image T σ hy hτ hS (F := ⟨v, u, a.rho⟩) (F' := ⟨v', T.Q u, a'.rho⟩)
        ⟨hv, rfl, ha.rho⟩ hC G.cg
      rw [hcg]
      generalize solveLinear G.cg G.S ⟨v, u, a.rho⟩ C = r at *
      generalize solveLinear (T.pt G.cg) G'.S ⟨v', T.Q u, a'.rho⟩ C' = r' at *
      cases r <;> cases r' <;> simp_all [Outcome]

theorem processCtrl_ctrl (G : LLGeom ι) (st st1 : LLState ι) (c : Option CtrlDict) (h : st1.ctrl = st.ctrl) :
    (processCtrl G st1 c).ctrl = (processCtrl G st c).ctrl := by
  unfold processCtrl
  split
  · split
    · rfl
    · exact h
  · exact h

/-- a linear solve with an explicit aero state, any control argument -/
theorem llSolve_aero (G : LLGeom ι) (st : LLState ι) (d : AeroDict ι) (c : Option CtrlDict)
    (hd : d.truthy = true) :
    (llSolve G st "linear" (some d) c).1 =
      (match arrOf G d with
       | .error e => .error e
       | .ok a => kern G a (processCtrl G st c).ctrl) := by
  rw [llSolve_linear]
  have h := processAero_explicit G st d hd
  cases ha : arrOf G d with
  | error e => rw [ha] at h; simp only at h; rw [h]
  | ok a =>
    rw [ha] at h
    obtain ⟨rt, h⟩ := h
    rw [h]
    simp only [runLinear_eq]
    obtain ⟨h1, h2, h3⟩ := processCtrl_v G { st with v := a.v, u := a.u, rho := a.rho, rates := rt } c
    rw [h1, h2, h3, processCtrl_ctrl G st _ c]
    rfl

theorem llSolve_image (T : Sim) (σ : ι ≃ ι') {G : LLGeom ι} {G' : LLGeom ι'} {d : AeroDict ι} {d' : AeroDict ι'}
    {c c' : Option CtrlDict} {τ : ℝ} (hy : T.Q ey = τ • ey) (hτ : |τ| = 1)
    (hS : ∀ i, SecImage T (G.S i) (G'.S (σ i))) (hcg : G'.cg = T.pt G.cg)
    (hd : d.truthy = true) (hd' : d'.truthy = true)
    (ha : Outcome (ArrImage T σ) (arrOf G d) (arrOf G' d')) (st : LLState ι) (st' : LLState ι')
    (hC : CtrlImage σ (processCtrl G st c).ctrl (processCtrl G' st' c').ctrl) :
    Outcome (FullImage T τ σ) (llSolve G st "linear" (some d) c).1
      (llSolve G' st' "linear" (some d') c').1 := by
  rw [llSolve_aero _ _ _ _ hd, llSolve_aero _ _ _ _ hd']
  revert ha
  generalize arrOf G d = r
  generalize arrOf G' d' = r'
  intro ha
  cases r <;> cases r' <;> simp only [Outcome] at ha
  · simp [Outcome, ha]
  · exact kern_image T σ hy hτ hS hcg ha hC

theorem Outcome.mono {α β ε : Type*} {P P' : α → β → Prop} {r : Except ε α} {r' : Except ε β}
    (h : Outcome P r r') (hP : ∀ a b, r = .ok a → r' = .ok b → P a b → P' a b) : Outcome P' r r' := by
  cases r <;> cases r' <;> simp_all [Outcome]

end Verif
