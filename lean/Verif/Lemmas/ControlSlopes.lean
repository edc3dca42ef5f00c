import Mathlib.Analysis.Calculus.Deriv.Abs
import Verif.Spec.ControlSlopes
import Verif.Lemmas.Slopes

/-! Helper lemmas for C143: load curves over control deflections. -/

namespace Verif
open V3 Topology Act

variable {n : ℕ} {G : LLGeom (Fin n)}

theorem ctrlAt_delta (G : LLGeom (Fin n)) (st : LLState (Fin n)) {c : CtrlDict} (hc : c.truthy = true) (i : Fin n) :
    (ctrlAt G st (some c)).delta i = c.deflects (G.S i) * Real.pi / 180 := by
  unfold ctrlAt processCtrl CtrlDict.deflects
  simp only [hc, if_true]
  ring

theorem ctrlAt_eff (G : LLGeom (Fin n)) (st : LLState (Fin n)) {c : CtrlDict} (hc : c.truthy = true) (i : Fin n) :
    (ctrlAt G st (some c)).eff i = if |c.deflects (G.S i)| > 11 then -8.71794871794872e-3 * |c.deflects (G.S i)| + 1.09589743589744 else 1 := by
  have e : (ctrlAt G st (some c)).eff i = deflEff ((ctrlAt G st (some c)).delta i) := by
    unfold ctrlAt processCtrl
    simp only [hc, if_true]
  rw [e, ctrlAt_delta G st hc]
  have hdeg : |c.deflects (G.S i) * Real.pi / 180| * 180 / Real.pi = |c.deflects (G.S i)| := by
    rw [abs_div, abs_mul, abs_of_pos Real.pi_pos, abs_of_pos (by norm_num : (0 : ℝ) < 180)]
    have := Real.pi_ne_zero
    field_simp
  unfold deflEff
  simp only [hdeg]

/-- near a state with regular flow, where all deflections and their absolute values are regular and none is 11 degrees, the solution is
regular -/
theorem ctrl_curve_ok {x : ℝ} (K : Calc ℝ x) (hcongr : ∀ f g : ℝ → ℝ, K.ok f → (∀ᶠ y in 𝓝 x, g y = f y) → K.ok g)
    {d : AeroDict (Fin n)} {V r : ℝ} (hV : d.Vmag = some V) (hr : d.rho = some r) (hl : d.localState = none) {k : ℝ → CtrlDict} (hk : ∀ y, (k y).truthy = true)
    (hδ : ∀ i, K.ok fun y => (k y).deflects (G.S i)) (hab : ∀ i, K.ok fun y => |(k y).deflects (G.S i)|)
    (h11 : ∀ i, (∀ y z, (k y).deflects (G.S i) = (k z).deflects (G.S i)) ∨ |(k x).deflects (G.S i)| ≠ 11)
    (hreg : RegularFlow G (k x) d) : ∃ Q : ℝ → Sol (Fin n), ∃ st, (∀ᶠ y in 𝓝 x, (llSolve G st "linear" (some d) (some (k y))).1 = .ok (Q y)) ∧ K.SolOk Q := by
  obtain ⟨st, R, hR, hb, hw⟩ := hreg
  obtain ⟨Q, h1, h2, h3⟩ := K.llSolveOk G st (d := fun _ => d)
    ⟨fun _ => ⟨hl, ⟨V, hV⟩, r, hr⟩, K.const _, K.const _, K.const _, K.const _, K.const _, K.const _, K.const _⟩ (c := fun y => some (k y))
    (fun i => by
      simp only [ctrlAt_delta G st (hk _), ctrlAt_eff G st (hk _)]
      refine ⟨?_, ?_, ?_⟩
      · simp only [mul_div_assoc]
        exact K.mul (hδ i) (K.const _)
      · simp only [mul_div_assoc, abs_mul]
        exact K.mul (hab i) (K.const _)
      · have he := hab i
        rcases h11 i with h | h
        · refine hcongr _ _ (K.const (if |(k x).deflects (G.S i)| > 11 then -8.71794871794872e-3 * |(k x).deflects (G.S i)| + 1.09589743589744 else 1))
            (.of_forall fun y => ?_)
          rw [h y x]
        · rcases lt_or_gt_of_ne h with hlt | hgt
          · refine hcongr _ _ (K.const 1) ?_
            filter_upwards [(K.cont he).eventually_lt continuousAt_const hlt] with y hy
            rw [if_neg (not_lt.2 hy.le)]
          · refine hcongr _ _ (K.add (K.mul (K.const (-8.71794871794872e-3)) he) (K.const 1.09589743589744)) ?_
            filter_upwards [continuousAt_const.eventually_lt (K.cont he) hgt] with y hy
            rw [if_pos hy])
    (fun _ _ => K.const _) hR hb
  exact ⟨Q, st, h1, h3⟩

structure LoadsCont (f : ℝ → Loads) (x : ℝ) : Prop where
  FL : ContinuousAt (fun t => (f t).FL) x
  FD : ContinuousAt (fun t => (f t).FD) x
  FS : ContinuousAt (fun t => (f t).FS) x
  FX : ContinuousAt (fun t => (f t).FX) x
  FY : ContinuousAt (fun t => (f t).FY) x
  FZ : ContinuousAt (fun t => (f t).FZ) x
  MX : ContinuousAt (fun t => (f t).MX) x
  MY : ContinuousAt (fun t => (f t).MY) x
  MZ : ContinuousAt (fun t => (f t).MZ) x

/-- the deflection of a surface changes linearly -/
def Linear1 (F : ℝ → ℝ) : Prop := ∃ a b, ∀ x, F x = a * x + b

theorem ctrl_diff {d : AeroDict (Fin n)} {V r : ℝ} (hV : d.Vmag = some V) (hr : d.rho = some r) (hl : d.localState = none)
    {k : ℝ → CtrlDict} (hk : ∀ y, (k y).truthy = true) (hlin : ∀ i, Linear1 fun y => (k y).deflects (G.S i)) {m : ℝ} (hc : ClearOfKinks G k m) (hreg : ∀ x, |x - m| ≤ 0.25 → RegularFlow G (k x) d)
    {f : ℝ → Loads} (hf : ControlLoadCurve G d k f) {x : ℝ} (hx : |x - m| ≤ 0.25) (hxm : x ≠ m) : LoadsDiff f x := by
  have hδ : ∀ i, DifferentiableAt ℝ (fun y => (k y).deflects (G.S i)) x := by
    intro i
    obtain ⟨a, b, h⟩ := hlin i
    simp only [h]
    fun_prop
  obtain ⟨Q, st, h1, h3⟩ := ctrl_curve_ok (Calc.differentiable x) (fun f g h e => DifferentiableAt.congr_of_eventuallyEq h e) hV hr hl hk hδ
    (fun i => by
      rcases hc.neutral i with h | h
      · exact (differentiableAt_const |(k x).deflects (G.S i)|).congr_of_eventuallyEq (.of_forall fun y => by simp only [h y x])
      · exact DifferentiableAt.abs (hδ i) (h x hx hxm))
    (fun i => (hc.eleven i).imp id fun h => h x hx) (hreg x hx)
  have he : ∀ᶠ y in 𝓝 x, (Q y).total = f y := h1.mono fun y hy => hf y st _ hy
  have h4 := h3.total
  exact
    { FL := DifferentiableAt.congr_of_eventuallyEq h4.FL (he.mono fun y hy => by simp only [← hy])
      FD := DifferentiableAt.congr_of_eventuallyEq h4.FD (he.mono fun y hy => by simp only [← hy])
      FS := DifferentiableAt.congr_of_eventuallyEq h4.FS (he.mono fun y hy => by simp only [← hy])
      FX := DifferentiableAt.congr_of_eventuallyEq h4.FX (he.mono fun y hy => by simp only [← hy])
      FY := DifferentiableAt.congr_of_eventuallyEq h4.FY (he.mono fun y hy => by simp only [← hy])
      FZ := DifferentiableAt.congr_of_eventuallyEq h4.FZ (he.mono fun y hy => by simp only [← hy])
      MX := DifferentiableAt.congr_of_eventuallyEq h4.MX (he.mono fun y hy => by simp only [← hy])
      MY := DifferentiableAt.congr_of_eventuallyEq h4.MY (he.mono fun y hy => by simp only [← hy])
      MZ := DifferentiableAt.congr_of_eventuallyEq h4.MZ (he.mono fun y hy => by simp only [← hy]) }

theorem ctrl_cont {d : AeroDict (Fin n)} {V r : ℝ} (hV : d.Vmag = some V) (hr : d.rho = some r) (hl : d.localState = none)
    {k : ℝ → CtrlDict} (hk : ∀ y, (k y).truthy = true) (hlin : ∀ i, Linear1 fun y => (k y).deflects (G.S i)) {m : ℝ} (hc : ClearOfKinks G k m) (hreg : ∀ x, |x - m| ≤ 0.25 → RegularFlow G (k x) d)
    {f : ℝ → Loads} (hf : ControlLoadCurve G d k f) {x : ℝ} (hx : |x - m| ≤ 0.25) : LoadsCont f x := by
  have hδ : ∀ i, ContinuousAt (fun y => (k y).deflects (G.S i)) x := by
    intro i
    obtain ⟨a, b, h⟩ := hlin i
    simp only [h]
    fun_prop
  obtain ⟨Q, st, h1, h3⟩ := ctrl_curve_ok (Calc.continuous x) (fun f g h e => ContinuousAt.congr h (e.mono fun _ h => h.symm)) hV hr hl hk hδ
    (fun i => (hδ i).abs) (fun i => (hc.eleven i).imp id fun h => h x hx) (hreg x hx)
  have he : ∀ᶠ y in 𝓝 x, (Q y).total = f y := h1.mono fun y hy => hf y st _ hy
  have h4 := h3.total
  exact
    { FL := ContinuousAt.congr h4.FL (he.mono fun y hy => by simp only [← hy])
      FD := ContinuousAt.congr h4.FD (he.mono fun y hy => by simp only [← hy])
      FS := ContinuousAt.congr h4.FS (he.mono fun y hy => by simp only [← hy])
      FX := ContinuousAt.congr h4.FX (he.mono fun y hy => by simp only [← hy])
      FY := ContinuousAt.congr h4.FY (he.mono fun y hy => by simp only [← hy])
      FZ := ContinuousAt.congr h4.FZ (he.mono fun y hy => by simp only [← hy])
      MX := ContinuousAt.congr h4.MX (he.mono fun y hy => by simp only [← hy])
      MY := ContinuousAt.congr h4.MY (he.mono fun y hy => by simp only [← hy])
      MZ := ContinuousAt.congr h4.MZ (he.mono fun y hy => by simp only [← hy]) }

private theorem one_slope {F : ℝ → ℝ} {a b u : ℝ} (hab : a < b) (hu : 0 < u) (hF : ∀ x, a < x → x < b → DifferentiableAt ℝ F x)
    (hC : ∀ x, a ≤ x → x ≤ b → ContinuousAt F x) :
    ∃ t, a * u < t ∧ t < b * u ∧ HasDerivAt (fun t => F (t / u)) ((F b - F a) / ((b - a) * u)) t := by
  obtain ⟨c, ⟨h1, h2⟩, h3⟩ := exists_deriv_eq_slope F hab (fun t ht => (hC t ht.1 ht.2).continuousWithinAt)
    (fun t ht => (hF t ht.1 ht.2).differentiableWithinAt)
  refine ⟨c * u, mul_lt_mul_of_pos_right h1 hu, mul_lt_mul_of_pos_right h2 hu, ?_⟩
  have h4 := (hF c h1 h2).hasDerivAt
  rw [h3] at h4
  have e : c * u / u = c := by field_simp
  have h5 : HasDerivAt F ((F b - F a) / (b - a)) (c * u / u) := by rw [e]; exact h4
  have h6 := HasDerivAt.comp (c * u) h5 ((hasDerivAt_id (c * u)).div_const u)
  have h7 := h6.congr_deriv (show (F b - F a) / (b - a) * (1 / u) = (F b - F a) / ((b - a) * u) by field_simp)
  exact h7

/-- a central difference is the mean of a slope on the left and a slope on the right -/
theorem mean_slope {F : ℝ → ℝ} {x0 h u c : ℝ} (hh : 0 < h) (hu : 0 < u)
    (hF : ∀ x, |x - x0| ≤ h → x ≠ x0 → DifferentiableAt ℝ F x) (hC : ∀ x, |x - x0| ≤ h → ContinuousAt F x)
    (hc : c = (F (x0 + h) - F (x0 - h)) / (2 * (h * u))) :
    MeanSlope (fun t => F (t / u)) ((x0 - h) * u) (x0 * u) ((x0 + h) * u) c := by
  obtain ⟨x, h1, h2, h3⟩ := one_slope (F := F) (a := x0 - h) (b := x0) (by linarith) hu
    (fun x h1 h2 => hF x (abs_le.2 ⟨by linarith, by linarith⟩) h2.ne) (fun x h1 h2 => hC x (abs_le.2 ⟨by linarith, by linarith⟩))
  obtain ⟨y, h4, h5, h6⟩ := one_slope (F := F) (a := x0) (b := x0 + h) (by linarith) hu
    (fun x h1 h2 => hF x (abs_le.2 ⟨by linarith, by linarith⟩) h1.ne') (fun x h1 h2 => hC x (abs_le.2 ⟨by linarith, by linarith⟩))
  refine ⟨x, y, _, _, h1, h2, h4, h5, h3, h6, ?_⟩
  rw [hc, show x0 - (x0 - h) = h by ring, show x0 + h - x0 = h by ring]
  field_simp
  ring

private theorem unscale' {a b : ℝ} (ha : a ≠ 0) : a * (b / a) = b := by field_simp

theorem ReportedDerivative.meanSlope {D : Option Deriv} {D' : Deriv} {f : ℝ → Loads} {forw back : Loads} {x h s u q : ℝ} {B : Backend (Fin n)}
    (hR : ReportedDerivative B D forw back s q) (hD : D = some D') (hF : forw = f (x + h)) (hB : back = f (x - h)) (hs : s = h * u)
    (hh : 0 < h) (hu : 0 < u) (hf : ∀ y, |y - x| ≤ h → y ≠ x → LoadsDiff f y) (hc : ∀ y, |y - x| ≤ h → LoadsCont f y) :
    D'.IsMeanSlope (fun t => f (t / u)) ((x - h) * u) (x * u) ((x + h) * u) q B.Sw B.lat B.long := by
  have h0 : ¬ (q * B.Sw = 0 ∨ B.lat = 0 ∨ B.long = 0) := by
    rw [← hR.2, hD]
    simp
  push Not at h0
  obtain ⟨hq, hlat, hlong⟩ := h0
  have h1 := hR.1 _ hD
  rw [hF, hB, hs] at h1
  obtain ⟨h1, h2, h3, h4, h5, h6, h7, h8, h9⟩ := h1
  constructor
  · exact mean_slope hh hu (fun y hy hn => (hf y hy hn).FL) (fun y hy => (hc y hy).FL) (by rw [h1, unscale' hq])
  · exact mean_slope hh hu (fun y hy hn => (hf y hy hn).FD) (fun y hy => (hc y hy).FD) (by rw [h2, unscale' hq])
  · exact mean_slope hh hu (fun y hy hn => (hf y hy hn).FS) (fun y hy => (hc y hy).FS) (by rw [h3, unscale' hq])
  · exact mean_slope hh hu (fun y hy hn => (hf y hy hn).FX) (fun y hy => (hc y hy).FX) (by rw [h4, unscale' hq])
  · exact mean_slope hh hu (fun y hy hn => (hf y hy hn).FY) (fun y hy => (hc y hy).FY) (by rw [h5, unscale' hq])
  · exact mean_slope hh hu (fun y hy hn => (hf y hy hn).FZ) (fun y hy => (hc y hy).FZ) (by rw [h6, unscale' hq])
  · exact mean_slope hh hu (fun y hy hn => (hf y hy hn).MX) (fun y hy => (hc y hy).MX) (by rw [h7, unscale' (mul_ne_zero hq hlat)])
  · exact mean_slope hh hu (fun y hy hn => (hf y hy hn).MY) (fun y hy => (hc y hy).MY) (by rw [h8, unscale' (mul_ne_zero hq hlong)])
  · exact mean_slope hh hu (fun y hy hn => (hf y hy hn).MZ) (fun y hy => (hc y hy).MZ) (by rw [h9, unscale' (mul_ne_zero hq hlat)])

variable {Sw lat long : ℝ}

theorem solvedAt_ctrl {ps : Option Unit} {d : AeroDict (Fin n)} {x : ℝ} {k : ℝ → CtrlDict} {L : Loads} {f : ℝ → Loads}
    (ht : d.truthy = true) (hf : ControlLoadCurve G d k f)
    (h : SolvedAt (B := wingsBackend G Sw lat long) ps d (some (k x)) L) : L = f x := by
  obtain ⟨w, w', d', h1, h2, h3, h4⟩ := h
  rw [h2.2 rfl] at h1
  rw [wings_muSolve h1 ht, h3] at h4
  have := hf x w.st
  rcases hL : llSolve G w.st "linear" (some d) (some (k x)) with ⟨e | R, st'⟩
  · rw [hL] at h4; simp at h4
  · rw [hL] at h4
    simp only [Prod.mk.injEq, Except.ok.injEq, zero_add_loads] at h4
    rw [← h4.1]
    exact this R (by rw [hL])

end Verif
