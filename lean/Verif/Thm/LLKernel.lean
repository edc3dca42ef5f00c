import Verif.Lemmas.LLKernel
import Verif.Lemmas.LLInputs
import Verif.Thm.BiotSavart
import Verif.Examples.LL

/-!
# What a successful lifting-line solve returns (C22, C23, C28, C32, C33, C34)
-/

namespace Verif
open V3

variable {ι : Type*} [Fintype ι] [DecidableEq ι]

/-- `FL, FD, FS` of a result group are the components of its force on the three given axes. -/
def WindComponents (eL eD eS : V3) (l : Loads) : Prop :=
  l.FL = dot l.F eL ∧ l.FD = dot l.F eD ∧ l.FS = dot l.F eS ∧
    l.FL ^ 2 + l.FD ^ 2 + l.FS ^ 2 = l.FX ^ 2 + l.FY ^ 2 + l.FZ ^ 2

/-- **C22.** For every successful solve with an explicit aero state there are orthonormal axes - drag `eD` along the
wind direction held by the model, lift `eL` perpendicular to the wind and the y axis (on the side of `eD × ey`), side
force `eS = eL × eD` - such that lift, drag and side force of all three result groups are the components of the body
force, and the total group is the sum of the inviscid and viscous ones. -/
theorem C22_wind_axes (G : LLGeom ι) (st st' : LLState ι) (stype : String) (d : AeroDict ι) (c : Option CtrlDict)
    (R : Sol ι) (hd : d.truthy = true) (h : llSolve G st stype (some d) c = (.ok R, st')) :
    ∃ eL eD eS : V3,
      st'.u = some eD ∧ nrm eL = 1 ∧ nrm eD = 1 ∧ nrm eS = 1 ∧ dot eL eD = 0 ∧ dot eL eS = 0 ∧ dot eD eS = 0 ∧
      eS = cross eL eD ∧ dot eL ⟨0, 1, 0⟩ = 0 ∧ (∃ k : ℝ, 0 < k ∧ eL = k • cross eD ⟨0, 1, 0⟩) ∧
      WindComponents eL eD eS R.inviscid ∧ WindComponents eL eD eS R.viscous ∧ WindComponents eL eD eS R.total ∧
      R.total.FL = R.inviscid.FL + R.viscous.FL ∧ R.total.FD = R.inviscid.FD + R.viscous.FD ∧
      R.total.FS = R.inviscid.FS + R.viscous.FS ∧ R.total.F = R.inviscid.F + R.viscous.F ∧
      R.total.M = R.inviscid.M + R.viscous.M := by
  obtain ⟨v, u, hv, hu, hs, -, -⟩ := llSolve_ok h
  have hu1 := llSolve_unit hd h hu
  obtain ⟨-, -, -, hp, -, hR⟩ := solveLinear_ok hs
  have hw : WindAxesDefined u := hp.2
  obtain ⟨h1, h2, h3, h4, h5⟩ := liftAxis_props hu1 hw
  have hmk : ∀ F M, WindComponents (liftAxis u) u (cross (liftAxis u) u) (mkLoads u F M) := by
    intro F M
    have hF : (mkLoads u F M).F = F := rfl
    refine ⟨?_, ?_, ?_, ?_⟩
    · rw [hF]; simp only [mkLoads, rotateAero_eq hu1 hw]
    · rw [hF]; simp only [mkLoads, rotateAero_eq hu1 hw]
    · rw [hF]; simp only [mkLoads, rotateAero_eq hu1 hw]
    · simp only [mkLoads, rotateAero_eq hu1 hw]
      rw [parseval h1 hu1 h2]
      simp only [dot]; ring
  have hI : WindComponents (liftAxis u) u (cross (liftAxis u) u) R.inviscid := by
    rw [hR]; exact hmk _ _
  have hV : WindComponents (liftAxis u) u (cross (liftAxis u) u) R.viscous := by
    rw [hR]; exact hmk _ _
  have hT : R.total = R.inviscid.add R.viscous := by rw [hR]; rfl
  have hTF : R.total.F = R.inviscid.F + R.viscous.F := by rw [hT]; ext <;> rfl
  have e1 : R.total.FL = dot R.total.F (liftAxis u) := by
    rw [hTF, add_dot, ← hI.1, ← hV.1, hT]; rfl
  have e2 : R.total.FD = dot R.total.F u := by
    rw [hTF, add_dot, ← hI.2.1, ← hV.2.1, hT]; rfl
  have e3 : R.total.FS = dot R.total.F (cross (liftAxis u) u) := by
    rw [hTF, add_dot, ← hI.2.2.1, ← hV.2.2.1, hT]; rfl
  refine ⟨liftAxis u, u, cross (liftAxis u) u, hu, h1, hu1, h4, h2, dot_cross_self _ _, dot_cross_self' _ _, rfl, h3,
    ⟨1 / nrm (cross u ey), ?_, rfl⟩, hI, hV, ⟨e1, e2, e3, ?_⟩, ?_, ?_, ?_, hTF, ?_⟩
  · have := lt_of_le_of_ne (nrm_nonneg (cross u ey)) (Ne.symm hw.1)
    positivity
  · rw [e1, e2, e3, parseval h1 hu1 h2]; simp only [dot, Loads.F]; ring
  · rw [hT]; rfl
  · rw [hT]; rfl
  · rw [hT]; rfl
  · rw [hT]; ext <;> rfl

example : ∃ (R : Sol (Fin 2)) (st' : LLState (Fin 2)),
    llSolve exGeom (LLState.init _) "linear" (some exAero) (some exCtrl) = (.ok R, st') ∧ exAero.truthy = true ∧
      R.inviscid.FZ ≠ 0 :=
  ⟨exSol, (llSolve exGeom (LLState.init _) "linear" (some exAero) (some exCtrl)).2,
    Prod.ext (ex_solve _) rfl, exAero_truthy, by rw [ex_FZ]; have := exGamma_pos; intro h; linarith⟩

/-- **C23 (freestream vector).** For all `V ≠ 0` and angles (degrees): the freestream is defined unless `α` and `β` are
both odd multiples of 90°; when defined it has magnitude `|V|`, its components stand in the ratios `tan α`, `tan β`, and for
`|α|, |β| < 90°` and `V > 0` it comes from the front. -/
theorem C23_freestream (V α β : ℝ) :
    (freestream V α β = none ↔ Real.cos (rad α) = 0 ∧ Real.cos (rad β) = 0) ∧
    ∀ w, freestream V α β = some w →
      nrm w = |V| ∧
      w.z * Real.cos (rad α) = w.x * Real.sin (rad α) ∧ w.y * Real.cos (rad β) = w.x * Real.sin (rad β) ∧
      (V ≠ 0 → Real.cos (rad α) ≠ 0 → Real.cos (rad β) ≠ 0 →
        w.x ≠ 0 ∧ w.z / w.x = Real.tan (rad α) ∧ w.y / w.x = Real.tan (rad β)) ∧
      (0 < V → 0 < Real.cos (rad α) → 0 < Real.cos (rad β) → w.x < 0) := by
  have ha := Real.sin_sq_add_cos_sq (rad α)
  have hb := Real.sin_sq_add_cos_sq (rad β)
  have hsplit : 1 - Real.sin (rad α) * Real.sin (rad α) * Real.sin (rad β) * Real.sin (rad β) =
      Real.cos (rad α) ^ 2 + Real.sin (rad α) ^ 2 * Real.cos (rad β) ^ 2 := by
    linear_combination (-1 : ℝ) * ha - Real.sin (rad α) ^ 2 * hb
  have hnn : 0 ≤ 1 - Real.sin (rad α) * Real.sin (rad α) * Real.sin (rad β) * Real.sin (rad β) := by
    rw [hsplit]; positivity
  have hz : Real.sqrt (1 - Real.sin (rad α) * Real.sin (rad α) * Real.sin (rad β) * Real.sin (rad β)) = 0 ↔
      Real.cos (rad α) = 0 ∧ Real.cos (rad β) = 0 := by
    rw [Real.sqrt_eq_zero hnn, hsplit]
    constructor
    · intro h
      have h1 : Real.cos (rad α) = 0 := by
        have := sq_nonneg (Real.cos (rad α))
        have : 0 ≤ Real.sin (rad α) ^ 2 * Real.cos (rad β) ^ 2 := by positivity
        exact pow_eq_zero_iff (n := 2) two_ne_zero |>.mp (by linarith)
      refine ⟨h1, ?_⟩
      rw [h1] at h ha
      have hs : Real.sin (rad α) ^ 2 = 1 := by linarith
      rw [hs] at h
      exact pow_eq_zero_iff (n := 2) two_ne_zero |>.mp (by linarith)
    · rintro ⟨h1, h2⟩; rw [h1, h2]; ring
  constructor
  · unfold freestream
    simp only
    split
    · rename_i h; simpa using hz.mp h
    · rename_i h
      simp only [reduceCtorEq, false_iff]
      exact fun h' => h (hz.mpr h')
  · intro w hw
    unfold freestream at hw
    simp only at hw
    split at hw
    · cases hw
    · rename_i h0
      have hw := Option.some.inj hw
      have hd2 := Real.sq_sqrt hnn
      have hDnn := Real.sqrt_nonneg (1 - Real.sin (rad α) * Real.sin (rad α) * Real.sin (rad β) * Real.sin (rad β))
      generalize Real.sqrt (1 - Real.sin (rad α) * Real.sin (rad α) * Real.sin (rad β) * Real.sin (rad β)) = D at *
      have hx : w.x = V / D * (-Real.cos (rad α) * Real.cos (rad β)) := by rw [← hw]
      have hy : w.y = V / D * (-Real.cos (rad α) * Real.sin (rad β)) := by rw [← hw]
      have hzz : w.z = V / D * (-Real.sin (rad α) * Real.cos (rad β)) := by rw [← hw]
      have hx0 : V ≠ 0 → Real.cos (rad α) ≠ 0 → Real.cos (rad β) ≠ 0 → w.x ≠ 0 := by
        intro h1 h2 h3
        rw [hx]
        exact mul_ne_zero (div_ne_zero h1 h0) (mul_ne_zero (neg_ne_zero.mpr h2) h3)
      have t1 : w.z * Real.cos (rad α) = w.x * Real.sin (rad α) := by rw [hx, hzz]; ring
      have t2 : w.y * Real.cos (rad β) = w.x * Real.sin (rad β) := by rw [hx, hy]; ring
      refine ⟨?_, t1, t2, ?_, ?_⟩
      · have : dot w w = V ^ 2 := by
          rw [dot, hx, hy, hzz]
          field_simp
          rw [hd2]
          linear_combination (Real.cos (rad α) ^ 2 * (V ^ 2)) * hb + V ^ 2 * ha + V ^ 2 * Real.sin (rad α) ^ 2 * hb
        rw [nrm, this, Real.sqrt_sq_eq_abs]
      · intro h1 h2 h3
        have := hx0 h1 h2 h3
        refine ⟨this, ?_, ?_⟩
        · rw [Real.tan_eq_sin_div_cos]; field_simp; linarith
        · rw [Real.tan_eq_sin_div_cos]; field_simp; linarith
      · intro h1 h2 h3
        have hD : 0 < D := lt_of_le_of_ne hDnn (Ne.symm h0)
        rw [hx]
        have : 0 < V / D * (Real.cos (rad α) * Real.cos (rad β)) := by positivity
        linarith

/-- **C23 (what the solver uses).** With `V_mag`, `rho` and no `local_state` and no rotation rates, a successful solve has
used the freestream velocity and the density at every section, and its unit vector as wind direction. -/
theorem C23_flow_used (G : LLGeom ι) (st st' : LLState ι) (stype : String) (d : AeroDict ι) (c : Option CtrlDict)
    (R : Sol ι) (V rho : ℝ) (hV : d.Vmag = some V) (hrho : d.rho = some rho) (hl : d.localState = none)
    (hr : d.roll = none ∧ d.pitch = none ∧ d.yaw = none)
    (h : llSolve G st stype (some d) c = (.ok R, st')) :
    ∃ w, freestream V (d.alpha.getD 0) (d.beta.getD 0) = some w ∧ V ≠ 0 ∧
      st'.v = some (fun _ => w) ∧ st'.u = some ((1 / |V|) • w) ∧ st'.rho = fun _ => rho := by
  have hd : d.truthy = true := by simp [AeroDict.truthy, hV]
  obtain ⟨a, ha, h1, h2, h3⟩ := llSolve_arr hd h
  obtain ⟨v, u, hv, hu, -⟩ := llSolve_ok h
  have hrate : d.hasRates = false := by simp [AeroDict.hasRates, hr]
  simp only [arrOf, hl, hV, hrho, Except.ok.injEq, rotArr, hrate] at ha
  subst ha
  simp only at h1 h2 h3
  cases hw : freestream V (d.alpha.getD 0) (d.beta.getD 0) with
  | none => rw [hw] at h1; simp [hv] at h1
  | some w =>
    rw [hw] at h1 h2
    have hn := ((C23_freestream V (d.alpha.getD 0) (d.beta.getD 0)).2 w hw).1
    simp only [Option.bind_some, normalise] at h2
    split at h2
    · rw [hu] at h2; cases h2
    · rename_i h0
      refine ⟨w, rfl, ?_, by simpa using h1, ?_, h3⟩
      · rintro rfl; exact h0 (by rw [hn]; simp)
      · rw [h2, unit, hn]

example : ∃ w, freestream 10 5 3 = some w ∧ nrm w = 10 := by
  cases hw : freestream 10 5 3 with
  | none =>
    have := ((C23_freestream 10 5 3).1.mp hw).1
    have h2 : 0 < Real.cos (rad 5) := by
      apply Real.cos_pos_of_mem_Ioo
      have := Real.pi_pos
      constructor <;> simp only [rad] <;> linarith
    linarith
  | some w => exact ⟨w, rfl, by rw [((C23_freestream 10 5 3).2 w hw).1]; norm_num⟩
example : exAero.Vmag = some 10 ∧ exAero.rho = some 1 ∧ exAero.localState = none ∧
    (exAero.roll = none ∧ exAero.pitch = none ∧ exAero.yaw = none) := ⟨rfl, rfl, rfl, rfl, rfl, rfl⟩

/-- **C28.** Without rotation rates, moving the CG by `δ` changes no force and no section quantity, and changes the moment
of every result group by `-(δ × F)`. -/
theorem C28_cg_transfer (G : LLGeom ι) (st : LLState ι) (stype : String) (a : Option (AeroDict ι))
    (c : Option CtrlDict) (δ : V3)
    (hr : ∀ d, a = some d → d.roll = none ∧ d.pitch = none ∧ d.yaw = none) :
    Outcome (fun R R' =>
        R'.force = R.force ∧ R'.fpar = R.fpar ∧ R'.gamma = R.gamma ∧ SameSections (Equiv.refl ι) R R' ∧
        (R'.inviscid.FL, R'.inviscid.FD, R'.inviscid.FS) = (R.inviscid.FL, R.inviscid.FD, R.inviscid.FS) ∧
        (R'.viscous.FL, R'.viscous.FD, R'.viscous.FS) = (R.viscous.FL, R.viscous.FD, R.viscous.FS) ∧
        (R'.total.FL, R'.total.FD, R'.total.FS) = (R.total.FL, R.total.FD, R.total.FS) ∧
        R'.inviscid.F = R.inviscid.F ∧ R'.viscous.F = R.viscous.F ∧ R'.total.F = R.total.F ∧
        R'.inviscid.M = R.inviscid.M - cross δ R.inviscid.F ∧
        R'.viscous.M = R.viscous.M - cross δ R.viscous.F ∧
        R'.total.M = R.total.M - cross δ R.total.F)
      (llSolve G st stype a c).1 (llSolve { G with cg := G.cg + δ } st stype a c).1 := by
  have hpa : processAero { G with cg := G.cg + δ } st a = processAero G st a := by
    cases a with
    | none => rfl
    | some d =>
      have hrate : d.hasRates = false := by simp [AeroDict.hasRates, hr d rfl]
      unfold processAero
      simp only [hrate]
      rfl
  have hpc : ∀ s, processCtrl { G with cg := G.cg + δ } s c = processCtrl G s c := fun s => rfl
  have hrun : ∀ s : LLState ι, Outcome (fun R R' => R' = solOf (G.cg + δ) G.S ⟨s.v.getD 0, s.u.getD 0, s.rho⟩ s.ctrl R.gamma ∧
        R = solOf G.cg G.S ⟨s.v.getD 0, s.u.getD 0, s.rho⟩ s.ctrl R.gamma)
      (runLinear G s) (runLinear { G with cg := G.cg + δ } s) := by
    intro s
    unfold runLinear
    split
    · rename_i v u hv hu
      simp only
      unfold solveLinear
      by_cases h1 : InfluenceDefined G.S u ∧ RhsDefined G.S ⟨v, u, s.rho⟩
      · by_cases h2 : (aMat G.S ⟨v, u, s.rho⟩).det = 0
        · simp only [h1, h2, not_true_eq_false, if_false, if_true]; rfl
        · by_cases h3 : PostDefined ⟨v, u, s.rho⟩ (vInd G.S ⟨v, u, s.rho⟩
            ((aMat G.S ⟨v, u, s.rho⟩)⁻¹.mulVec (bVec G.S ⟨v, u, s.rho⟩ s.ctrl)))
          · simp only [h1, h2, h3, not_true_eq_false, if_false, hv, hu, Option.getD_some]
            exact ⟨rfl, rfl⟩
          · simp only [h1, h2, h3, not_true_eq_false, not_false_eq_true, if_false, if_true]; rfl
      · simp only [h1, not_false_eq_true, if_true]; rfl
    · rfl
  have key : ∀ (F : Flow ι) (C : Ctrl ι) (γ : ι → ℝ),
      (solOf (G.cg + δ) G.S F C γ).inviscid.M = (solOf G.cg G.S F C γ).inviscid.M - cross δ (solOf G.cg G.S F C γ).inviscid.F ∧
      (solOf (G.cg + δ) G.S F C γ).viscous.M = (solOf G.cg G.S F C γ).viscous.M - cross δ (solOf G.cg G.S F C γ).viscous.F := by
    intro F C γ
    constructor
    · have e : ∀ i, secMoment (G.cg + δ) G.S F C γ (vInd G.S F γ) i = secMoment G.cg G.S F C γ (vInd G.S F γ) i
          - cross δ (secForce G.S F γ (vInd G.S F γ) i) := by
        intro i
        simp only [secMoment]
        rw [show (G.S i).rcp - (G.cg + δ) = (G.S i).rcp - G.cg - δ by abel, sub_cross]
        abel
      show (∑ i, secMoment (G.cg + δ) G.S F C γ (vInd G.S F γ) i) = _
      simp only [e, Finset.sum_sub_distrib, sum_cross]
      rfl
    · have e : ∀ i, secMomentP (G.cg + δ) G.S F C (vInd G.S F γ) i = secMomentP G.cg G.S F C (vInd G.S F γ) i
          - cross δ (secDrag G.S F C (vInd G.S F γ) i) := by
        intro i
        simp only [secMomentP]
        rw [show (G.S i).rcp - (G.cg + δ) = (G.S i).rcp - G.cg - δ by abel, sub_cross]
      show (∑ i, secMomentP (G.cg + δ) G.S F C (vInd G.S F γ) i) = _
      simp only [e, Finset.sum_sub_distrib, sum_cross]
      rfl
  unfold llSolve
  rw [hpa]
  split
  · rfl
  · rename_i st1 _
    simp only [hpc]
    split
    · have h := hrun (processCtrl G st1 c)
      generalize runLinear G (processCtrl G st1 c) = r at *
      generalize runLinear { G with cg := G.cg + δ } (processCtrl G st1 c) = r' at *
      cases r with
      | error e =>
        cases r' with
        | error e' =>
          have : e = e' := h
          subst this
          cases e <;> rfl
        | ok R' => exact h.elim
      | ok R =>
        cases r' with
        | error e' => exact h.elim
        | ok R' =>
          obtain ⟨h1, h2⟩ := h
          obtain ⟨k1, k2⟩ := key ⟨(processCtrl G st1 c).v.getD 0, (processCtrl G st1 c).u.getD 0, (processCtrl G st1 c).rho⟩
            (processCtrl G st1 c).ctrl R.gamma
          generalize R.gamma = γ at h1 h2 k1 k2
          subst h1 h2
          refine ⟨rfl, rfl, rfl, ⟨fun _ => rfl, fun _ => rfl, fun _ => rfl, fun _ => rfl⟩, rfl, rfl, rfl, rfl, rfl,
            rfl, k1, k2, ?_⟩
          have m : ∀ l l' : Loads, (l.add l').M = l.M + l'.M := fun l l' => rfl
          have f : ∀ l l' : Loads, (l.add l').F = l.F + l'.F := fun l l' => rfl
          rw [solOf_total, solOf_total, m, m, f, k1, k2, cross_add]
          abel
    · rfl

example : ∃ R : Sol (Fin 2), (llSolve exGeom (LLState.init _) "linear" (some exAero) (some exCtrl)).1 = .ok R ∧
    R.inviscid.FZ ≠ 0 ∧ ∀ d, some exAero = some d → d.roll = none ∧ d.pitch = none ∧ d.yaw = none :=
  ⟨exSol, ex_solve _, by rw [ex_FZ]; have := exGamma_pos; intro h; linarith,
    fun d hd => by cases hd; exact ⟨rfl, rfl, rfl⟩⟩

end Verif
