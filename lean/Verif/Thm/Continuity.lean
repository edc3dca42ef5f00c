import Mathlib.Topology.MetricSpace.Pseudo.Pi
import Verif.Lemmas.LLCalcApi
import Verif.Examples.LL

/-!
# Small changes of the flight condition and the controls change the results a little (C131)
-/

namespace Verif
open V3 Topology

variable {ι : Type*} [Fintype ι] [DecidableEq ι]

section
variable {E : Type*} [TopologicalSpace E] {e : E} {ε : ℝ}

private theorem near1 (hε : 0 < ε) {f : E → ℝ} (h : ContinuousAt f e) : ∀ᶠ x in 𝓝 e, |f x - f e| < ε := by
  have := h (Metric.ball_mem_nhds (f e) hε)
  filter_upwards [this] with x hx
  rwa [Set.mem_preimage, Metric.mem_ball, Real.dist_eq] at hx

private theorem nearV (hε : 0 < ε) {f : E → V3} (h : (Calc.continuous e).okV f) : ∀ᶠ x in 𝓝 e, (f e).Near ε (f x) := by
  filter_upwards [near1 hε h.1, near1 hε h.2.1, near1 hε h.2.2] with x h1 h2 h3
  exact ⟨h1, h2, h3⟩

private theorem nearL (hε : 0 < ε) {L : E → Loads} (h : (Calc.continuous e).LoadsOk L) : ∀ᶠ x in 𝓝 e, (L e).Near ε (L x) := by
  filter_upwards [near1 hε h.FL, near1 hε h.FD, near1 hε h.FS, near1 hε h.FX, near1 hε h.FY, near1 hε h.FZ, near1 hε h.MX, near1 hε h.MY,
    near1 hε h.MZ] with x h1 h2 h3 h4 h5 h6 h7 h8 h9
  exact ⟨h1, h2, h3, h4, h5, h6, h7, h8, h9⟩

private theorem nearS (hε : 0 < ε) {Q : E → Sol ι} (h : (Calc.continuous e).SolOk Q) : ∀ᶠ x in 𝓝 e, (Q e).Near ε (Q x) := by
  filter_upwards [nearL hε h.inviscid, nearL hε h.viscous, nearL hε h.total, Filter.eventually_all.2 fun i => near1 hε (h.gamma i),
    Filter.eventually_all.2 fun i => nearV hε (h.vi i), Filter.eventually_all.2 fun i => near1 hε (h.alpha i),
    Filter.eventually_all.2 fun i => near1 hε (h.cl i), Filter.eventually_all.2 fun i => near1 hε (h.cd i),
    Filter.eventually_all.2 fun i => near1 hε (h.cm i), Filter.eventually_all.2 fun i => nearV hε (h.force i),
    Filter.eventually_all.2 fun i => nearV hε (h.fpar i), Filter.eventually_all.2 fun i => nearV hε (h.moment i)]
    with x h1 h2 h3 h4 h5 h6 h7 h8 h9 h10 h11 h12
  exact ⟨h1, h2, h3, h4, h5, h6, h7, h8, h9, h10, h11, h12⟩

end

/-- the numbers of a flight condition and of the controls -/
private def condOf (x : Fin 11 → ℝ) : FlightCond := ⟨x 0, x 1, x 2, x 3, x 4, x 5, x 6⟩
private def ctlOf (x : Fin 11 → ℝ) : Controls := ⟨x 7, x 8, x 9, x 10⟩
private def numsOf (c : FlightCond) (k : Controls) : Fin 11 → ℝ :=
  ![c.V, c.rho, c.alpha, c.beta, c.roll, c.pitch, c.yaw, k.aileron, k.elevator, k.rudder, k.flap]

private theorem dictOk (e : Fin 11 → ℝ) : (Calc.continuous e).DictOk fun x => (condOf x).dict ι :=
  { shape := fun x => ⟨rfl, ⟨_, rfl⟩, _, rfl⟩
    V := (continuous_apply (0 : Fin 11)).continuousAt
    rho := (continuous_apply (1 : Fin 11)).continuousAt
    alpha := (continuous_apply (2 : Fin 11)).continuousAt
    beta := (continuous_apply (3 : Fin 11)).continuousAt
    roll := (continuous_apply (4 : Fin 11)).continuousAt
    pitch := (continuous_apply (5 : Fin 11)).continuousAt
    yaw := (continuous_apply (6 : Fin 11)).continuousAt }

private theorem edgeOk (G : LLGeom ι) (e : Fin 11 → ℝ) (h0 : Real.sqrt (fsArg (((condOf e).dict ι).alpha.getD 0) (((condOf e).dict ι).beta.getD 0)) ≠ 0)
    (i : ι) : (Calc.continuous e).ok fun x =>
      nrm (cross ((flowAt G ((condOf x).dict ι) ((condOf x).dict ι).fs).v i) (dl (G.S i))) := by
  set K := Calc.continuous e
  have hd := dictOk (ι := ι) e
  have hw : K.okV fun x => ((condOf x).dict ι).fs := K.fsVecOk hd.V hd.alpha hd.beta h0
  have ho : K.okV fun x => (⟨((condOf x).dict ι).roll.getD 0, ((condOf x).dict ι).pitch.getD 0, ((condOf x).dict ι).yaw.getD 0⟩ : V3) :=
    ⟨hd.roll, hd.pitch, hd.yaw⟩
  have hc := K.crossV (K.subV hw (K.crossV ho (K.constV ((G.S i).rcp - G.cg)))) (K.constV (dl (G.S i)))
  exact ContinuousAt.sqrt (K.dotV hc hc)

/-- within `δ` in each number -/
private theorem nums_near {δ : ℝ} (hδ : 0 < δ) {c c' : FlightCond} {k k' : Controls} (h : c.Near δ c') (h' : k.Near δ k') :
    dist (numsOf c' k') (numsOf c k) < δ := by
  rw [dist_pi_lt_iff hδ]
  intro j
  rw [Real.dist_eq]
  fin_cases j
  · exact h.V
  · exact h.rho
  · exact h.alpha
  · exact h.beta
  · exact h.roll
  · exact h.pitch
  · exact h.yaw
  · exact h'.aileron
  · exact h'.elevator
  · exact h'.rudder
  · exact h'.flap

/-- **C131** (flight condition). If a solve succeeds, and at no section the disturbed air arrives from straight behind, then the solves for
all sufficiently close flight conditions, with the same controls, succeed as well, and their results are as close as desired. -/
theorem C131_conditions (G : LLGeom ι) (st : LLState ι) (c : FlightCond) (k : Option CtrlDict) (R : Sol ι)
    (hR : (llSolve G st "linear" (some (c.dict ι)) k).1 = .ok R) (hb : NotFromBehind G.S R) (ε : ℝ) (hε : 0 < ε) :
    ∃ δ > 0, ∀ c' : FlightCond, c.Near δ c' →
      ∃ R', (llSolve G st "linear" (some (c'.dict ι)) k).1 = .ok R' ∧ R.Near ε R' := by
  set k0 : Controls := ⟨0, 0, 0, 0⟩
  set e := numsOf c k0 with he
  obtain ⟨Q, h1, h2, h3⟩ := (Calc.continuous e).llSolveOk G st (dictOk (ι := ι) e) (c := fun _ => k)
    (fun i => ⟨continuousAt_const, continuousAt_const, continuousAt_const⟩) (edgeOk G e) (R := R) hR hb
  obtain ⟨δ, hδ, h⟩ := Metric.eventually_nhds_iff.1 (h1.and (nearS hε h3))
  rw [h2] at h
  refine ⟨δ, hδ, fun c' hc => ?_⟩
  obtain ⟨q1, q2⟩ := h (nums_near hδ hc (k := k0) (k' := k0) ⟨by simpa using hδ, by simpa using hδ, by simpa using hδ, by simpa using hδ⟩)
  exact ⟨_, q1, q2⟩

/-- **C131** (controls). The same when the controls change as well, provided no control surface is deflected by exactly 11 degrees either way
(there the efficiency the code assigns to the surface has a jump of `4.08e-15`). -/
theorem C131_controls (G : LLGeom ι) (st : LLState ι) (c : FlightCond) (k : Controls) (R : Sol ι)
    (hR : (llSolve G st "linear" (some (c.dict ι)) (some k.dict)).1 = .ok R) (hb : NotFromBehind G.S R)
    (hk : ∀ i, |k.deflection (G.S i)| ≠ 11) (ε : ℝ) (hε : 0 < ε) :
    ∃ δ > 0, ∀ (c' : FlightCond) (k' : Controls), c.Near δ c' → k.Near δ k' →
      ∃ R', (llSolve G st "linear" (some (c'.dict ι)) (some k'.dict)).1 = .ok R' ∧ R.Near ε R' := by
  set e := numsOf c k with he
  have hdel : ∀ x i, (ctrlAt G st (some (ctlOf x).dict)).delta i = (ctlOf x).deflection (G.S i) * Real.pi / 180 := fun x i => rfl
  have heff : ∀ x i, (ctrlAt G st (some (ctlOf x).dict)).eff i = deflEff ((ctlOf x).deflection (G.S i) * Real.pi / 180) := fun x i => rfl
  have hcd : ∀ i, Continuous fun x => (ctlOf x).deflection (G.S i) * Real.pi / 180 := by
    intro i
    unfold ctlOf Controls.deflection
    fun_prop
  obtain ⟨Q, h1, h2, h3⟩ := (Calc.continuous e).llSolveOk G st (dictOk (ι := ι) e) (c := fun x => some (ctlOf x).dict)
    (fun i => ⟨by simp only [hdel]; exact (hcd i).continuousAt, by simp only [hdel]; exact (hcd i).abs.continuousAt, by
      simp only [heff]
      have hdeg : ∀ x : ℝ, |x * Real.pi / 180| * 180 / Real.pi = |x| := by
        intro x
        rw [abs_div, abs_mul, abs_of_pos Real.pi_pos, abs_of_pos (by norm_num : (0 : ℝ) < 180)]
        have := Real.pi_ne_zero
        field_simp
      have hne : |(ctlOf e).deflection (G.S i)| ≠ 11 := hk i
      have hca : Continuous fun x : Fin 11 → ℝ => |(ctlOf x).deflection (G.S i)| := by
        unfold ctlOf Controls.deflection
        fun_prop
      unfold deflEff
      simp only [hdeg]
      rcases lt_or_gt_of_ne hne with hlt | hgt
      · have : ∀ᶠ x in 𝓝 e, (if |(ctlOf x).deflection (G.S i)| > 11 then -8.71794871794872e-3 * |(ctlOf x).deflection (G.S i)| +
            1.09589743589744 else (1 : ℝ)) = 1 := by
          filter_upwards [hca.continuousAt.eventually_lt continuousAt_const hlt] with x hx
          rw [if_neg (not_lt.2 hx.le)]
        exact continuousAt_const.congr (this.mono fun x hx => hx.symm)
      · have : ∀ᶠ x in 𝓝 e, (if |(ctlOf x).deflection (G.S i)| > 11 then -8.71794871794872e-3 * |(ctlOf x).deflection (G.S i)| +
            1.09589743589744 else (1 : ℝ)) = -8.71794871794872e-3 * |(ctlOf x).deflection (G.S i)| + 1.09589743589744 := by
          filter_upwards [continuousAt_const.eventually_lt hca.continuousAt hgt] with x hx
          rw [if_pos hx]
        exact ((hca.continuousAt.const_mul _).add continuousAt_const).congr (this.mono fun x hx => hx.symm)⟩) (edgeOk G e) (R := R) hR hb
  obtain ⟨δ, hδ, h⟩ := Metric.eventually_nhds_iff.1 (h1.and (nearS hε h3))
  rw [h2] at h
  refine ⟨δ, hδ, fun c' k' hc hk' => ?_⟩
  obtain ⟨q1, q2⟩ := h (nums_near hδ hc hk')
  exact ⟨_, q1, q2⟩

/-- The hypotheses are met: two sections on either side of the plane of symmetry, level flight at 10 per second, neutral controls. -/
theorem ex_condition (st : LLState (Fin 2)) :
    (llSolve exGeom st "linear" (some ((⟨10, 1, 0, 0, 0, 0, 0⟩ : FlightCond).dict (Fin 2))) (some (⟨0, 0, 0, 0⟩ : Controls).dict)).1 = .ok exSol ∧
    NotFromBehind exGeom.S exSol ∧ (∀ i, |(⟨0, 0, 0, 0⟩ : Controls).deflection (exGeom.S i)| ≠ 11) ∧ exSol.inviscid.FZ ≠ 0 := by
  refine ⟨?_, fun i => ?_, fun i => by simp [Controls.deflection], ?_⟩
  · set d := (⟨10, 1, 0, 0, 0, 0, 0⟩ : FlightCond).dict (Fin 2) with hd
    have hfs : d.fs = ⟨-10, 0, 0⟩ := by
      simp [hd, FlightCond.dict, AeroDict.fs, fsVec, fsArg, rad]
    have h0 : Real.sqrt (fsArg (d.alpha.getD 0) (d.beta.getD 0)) = 1 := by
      simp [hd, FlightCond.dict, fsArg, rad]
    have hn : nrm (⟨-10, 0, 0⟩ : V3) = 10 := by rw [nrm_x]; norm_num
    have hF : flowAt exGeom d ⟨-10, 0, 0⟩ = exFlow := by
      unfold flowAt exFlow
      congr 1
      · funext i; ext <;> simp [hd, FlightCond.dict]
      · unfold unit; rw [hn]; ext <;> simp
    have hC : ctrlAt exGeom st (some (⟨0, 0, 0, 0⟩ : Controls).dict) = exC := by
      have : ∀ i, (ctrlAt exGeom st (some (⟨0, 0, 0, 0⟩ : Controls).dict)).delta i = (⟨0, 0, 0, 0⟩ : Controls).deflection (exGeom.S i) * Real.pi / 180 :=
        fun i => rfl
      have h1 : (ctrlAt exGeom st (some (⟨0, 0, 0, 0⟩ : Controls).dict)).delta = exC.delta := by
        funext i; rw [this]; simp [Controls.deflection, exC]
      have h2 : ∀ i, (ctrlAt exGeom st (some (⟨0, 0, 0, 0⟩ : Controls).dict)).eff i =
          deflEff ((ctrlAt exGeom st (some (⟨0, 0, 0, 0⟩ : Controls).dict)).delta i) := fun i => rfl
      have h3 : (ctrlAt exGeom st (some (⟨0, 0, 0, 0⟩ : Controls).dict)).eff = exC.eff := by
        funext i; rw [h2, h1]; simp [exC, deflEff]
      cases hc : ctrlAt exGeom st (some (⟨0, 0, 0, 0⟩ : Controls).dict)
      rw [hc] at h1 h3
      simp only at h1 h3
      rw [h1, h3]
    rw [llSolve_plain exGeom st d _ rfl rfl rfl, h0, hfs, hn, if_neg (by norm_num), hF, hC, ex_solveLinear]
  · left
    have h1 : exSol.vi i = ⟨-10, 0, exGamma * (2 / (3 * Real.pi))⟩ := ex_vInd i
    have h2 : (exGeom.S i).ua = ⟨-1, 0, 0⟩ := by fin_cases i <;> rfl
    rw [h1, h2]; simp [dot]
  · rw [ex_FZ]
    have := exGamma_pos
    exact neg_ne_zero.2 (by positivity)

example : ∃ δ > 0, ∀ (c' : FlightCond) (k' : Controls), (⟨10, 1, 0, 0, 0, 0, 0⟩ : FlightCond).Near δ c' → (⟨0, 0, 0, 0⟩ : Controls).Near δ k' →
    ∃ R', (llSolve exGeom (LLState.init _) "linear" (some (c'.dict _)) (some k'.dict)).1 = .ok R' ∧ exSol.Near 0.001 R' :=
  C131_controls exGeom _ _ _ _ (ex_condition (LLState.init _)).1 (ex_condition (LLState.init _)).2.1 (ex_condition (LLState.init _)).2.2.1 _ (by norm_num)

end Verif
