import Mathlib.Analysis.Calculus.MeanValue
import Verif.Spec.Slopes
import Verif.Lemmas.LLCalcApi
import Verif.Thm.MUDerivs
import Verif.Thm.MUStall
import Verif.Thm.LLConditions

/-! Helper lemmas for C132: load curves are differentiable, and central differences are slopes. -/

namespace Verif
open V3 Topology Act

variable {n : ℕ} {G : LLGeom (Fin n)}

/-- the control arrays for a non-empty dictionary do not depend on the object -/
theorem llSolve_anyState (G : LLGeom (Fin n)) (st st' : LLState (Fin n)) {d : AeroDict (Fin n)} {k : CtrlDict} (hd : d.truthy = true)
    (hk : k.truthy = true) : (llSolve G st "linear" (some d) (some k)).1 = (llSolve G st' "linear" (some d) (some k)).1 := by
  rw [llSolve_explicit _ _ _ _ hd hk, llSolve_explicit _ _ _ _ hd hk]

/-- the freestream is the wind -/
theorem fs_isWind {d : AeroDict (Fin n)} {V : ℝ} (hV : d.Vmag = some V)
    (h0 : Real.sqrt (fsArg (d.alpha.getD 0) (d.beta.getD 0)) ≠ 0) :
    IsWind (d.Vmag.getD 0) (d.alpha.getD 0) (d.beta.getD 0) d.fs := by
  refine isWind_of ?_
  unfold freestream AeroDict.fs fsVec fsArg
  unfold fsArg at h0
  simp only
  rw [if_neg h0]

structure LoadsDiff (f : ℝ → Loads) (x : ℝ) : Prop where
  FL : DifferentiableAt ℝ (fun t => (f t).FL) x
  FD : DifferentiableAt ℝ (fun t => (f t).FD) x
  FS : DifferentiableAt ℝ (fun t => (f t).FS) x
  FX : DifferentiableAt ℝ (fun t => (f t).FX) x
  FY : DifferentiableAt ℝ (fun t => (f t).FY) x
  FZ : DifferentiableAt ℝ (fun t => (f t).FZ) x
  MX : DifferentiableAt ℝ (fun t => (f t).MX) x
  MY : DifferentiableAt ℝ (fun t => (f t).MY) x
  MZ : DifferentiableAt ℝ (fun t => (f t).MZ) x

theorem curve_diff {k : CtrlDict} {d : ℝ → AeroDict (Fin n)} {f : ℝ → Loads} (hk : k.truthy = true)
    {x : ℝ} (hd : (Calc.differentiable x).DictOk d) (hf : WingLoadCurve G k d f) (hr : RegularFlow G k (d x)) : LoadsDiff f x := by
  obtain ⟨st, R, hR, hb, hw⟩ := hr
  obtain ⟨hl, ⟨V, hV⟩, r, hr⟩ := hd.shape x
  obtain ⟨Q, h1, h2, h3⟩ := (Calc.differentiable x).llSolveOk G st hd (c := fun _ => some k)
    (fun i => ⟨differentiableAt_const _, differentiableAt_const _, differentiableAt_const _⟩) (fun h0 i => by
      set K := Calc.differentiable x
      have hfs : K.okV fun y => (d y).fs := K.fsVecOk hd.V hd.alpha hd.beta h0
      have ho : K.okV fun y => (⟨(d y).roll.getD 0, (d y).pitch.getD 0, (d y).yaw.getD 0⟩ : V3) := ⟨hd.roll, hd.pitch, hd.yaw⟩
      have hc := K.crossV (K.subV hfs (K.crossV ho (K.constV ((G.S i).rcp - G.cg)))) (K.constV (dl (G.S i)))
      refine K.nrmV hc ?_
      have := hw _ (fs_isWind hV h0) i
      rwa [Ne, nrm_eq_zero]) hR hb
  have he : ∀ᶠ y in 𝓝 x, (Q y).total = f y := h1.mono fun y hy => hf y st _ hy
  have h4 := h3.total
  exact
    { FL := DifferentiableAt.congr_of_eventuallyEq h4.FL (he.mono fun y hy => by simp only [← hy])
      FD := DifferentiableAt.congr_of_eventuallyEq h4.FD (he.mono fun y hy => by simp only [← hy])
      FS := DifferentiableAt.congr_of_eventuallyEq h4.FS (he.mono fun y hy => by simp only [← hy])
      FX := DifferentiableAt.congr_of_eventuallyEq h4.FX (he.mono fun y hy => by simp only [← hy])
      FY := DifferentiableAt.congr_of_eventuallyEq h4.FY (he.mono fun y hy => by simp only [← hy])
      FZ := DifferentiableAt.congr_of_eventuallyEq h4.FZ (he.mono fun y hy => by simp only [← hy])
      MX := DifferentiableAt.congr_of_eventuallyEq h4.MX (he.mono fun y hy => by simp only [← hy])
      MY := DifferentiableAt.congr_of_eventuallyEq h4.MY (he.mono fun y hy => by simp only [← hy])
      MZ := DifferentiableAt.congr_of_eventuallyEq h4.MZ (he.mono fun y hy => by simp only [← hy]) }

/-- the mean value theorem for a central difference -/
theorem slope_within {F : ℝ → ℝ} {x0 h u c : ℝ} (hh : 0 < h) (hu : 0 < u)
    (hF : ∀ x, |x - x0| ≤ h → DifferentiableAt ℝ F x) (hc : c = (F (x0 + h) - F (x0 - h)) / (2 * (h * u))) :
    ∃ t, (x0 - h) * u < t ∧ t < (x0 + h) * u ∧ HasDerivAt (fun t => F (t / u)) c t := by
  have hab : (x0 - h) * u < (x0 + h) * u := mul_lt_mul_of_pos_right (by linarith) hu
  have hd : ∀ t, (x0 - h) * u ≤ t → t ≤ (x0 + h) * u → DifferentiableAt ℝ (fun t => F (t / u)) t := by
    intro t h1 h2
    have h3 : |t / u - x0| ≤ h := by
      rw [abs_le]
      have := (le_div_iff₀ hu).2 h1
      have := (div_le_iff₀ hu).2 h2
      constructor <;> linarith
    exact (hF _ h3).comp t (f := fun t : ℝ => t / u) (by fun_prop)
  obtain ⟨t, ⟨h1, h2⟩, h3⟩ := exists_deriv_eq_slope (fun t => F (t / u)) hab
    (fun t ht => (hd t ht.1 ht.2).continuousAt.continuousWithinAt) (fun t ht => (hd t ht.1.le ht.2.le).differentiableWithinAt)
  refine ⟨t, h1, h2, ?_⟩
  have h4 := (hd t h1.le h2.le).hasDerivAt
  rw [h3] at h4
  refine h4.congr_deriv ?_
  rw [hc, mul_div_assoc, mul_div_assoc, div_self hu.ne', mul_one, mul_one]
  congr 1
  ring

private theorem unscale {a b : ℝ} (ha : a ≠ 0) : a * (b / a) = b := by field_simp

/-- central differences of load curves -/
theorem IsCentralDifference.slope {D : Deriv} {f : ℝ → Loads} {x h u q S lat long : ℝ} (hh : 0 < h) (hu : 0 < u) (hq : q * S ≠ 0)
    (hlat : lat ≠ 0) (hlong : long ≠ 0) (hf : ∀ y, |y - x| ≤ h → LoadsDiff f y)
    (hD : D.IsCentralDifference (f (x + h)) (f (x - h)) (h * u) q S lat long) :
    D.IsSlopeWithin (fun t => f (t / u)) ((x - h) * u) ((x + h) * u) q S lat long := by
  obtain ⟨h1, h2, h3, h4, h5, h6, h7, h8, h9⟩ := hD
  constructor
  · exact slope_within hh hu (fun y hy => (hf y hy).FL) (by rw [h1, unscale hq])
  · exact slope_within hh hu (fun y hy => (hf y hy).FD) (by rw [h2, unscale hq])
  · exact slope_within hh hu (fun y hy => (hf y hy).FS) (by rw [h3, unscale hq])
  · exact slope_within hh hu (fun y hy => (hf y hy).FX) (by rw [h4, unscale hq])
  · exact slope_within hh hu (fun y hy => (hf y hy).FY) (by rw [h5, unscale hq])
  · exact slope_within hh hu (fun y hy => (hf y hy).FZ) (by rw [h6, unscale hq])
  · exact slope_within hh hu (fun y hy => (hf y hy).MX) (by rw [h7, unscale (mul_ne_zero hq hlat)])
  · exact slope_within hh hu (fun y hy => (hf y hy).MY) (by rw [h8, unscale (mul_ne_zero hq hlong)])
  · exact slope_within hh hu (fun y hy => (hf y hy).MZ) (by rw [h9, unscale (mul_ne_zero hq hlat)])

variable {Sw lat long : ℝ}

/-- a solve of the wings through `MachUp` lies on the load curve -/
theorem solvedAt_curve {ps : Option Unit} {d : ℝ → AeroDict (Fin n)} {x : ℝ} {k : CtrlDict} {L : Loads} {f : ℝ → Loads}
    (ht : (d x).truthy = true) (hf : WingLoadCurve G k d f)
    (h : SolvedAt (B := wingsBackend G Sw lat long) ps (d x) (some k) L) : L = f x := by
  obtain ⟨w, w', d', h1, h2, h3, h4⟩ := h
  rw [h2.2 rfl] at h1
  rw [wings_muSolve h1 ht, h3] at h4
  have := hf x w.st
  rcases hL : llSolve G w.st "linear" (some (d x)) (some k) with ⟨e | R, st'⟩
  · rw [hL] at h4; simp at h4
  · rw [hL] at h4
    simp only [Prod.mk.injEq, Except.ok.injEq, zero_add_loads] at h4
    rw [← h4.1]
    exact this R (by rw [hL])

theorem ReportedDerivative.slope {D : Option Deriv} {D' : Deriv} {f : ℝ → Loads} {forw back : Loads} {x h s u q : ℝ} {B : Backend (Fin n)}
    (hR : ReportedDerivative B D forw back s q) (hD : D = some D') (hF : forw = f (x + h)) (hB : back = f (x - h)) (hs : s = h * u)
    (hh : 0 < h) (hu : 0 < u) (hf : ∀ y, |y - x| ≤ h → LoadsDiff f y) :
    D'.IsSlopeWithin (fun t => f (t / u)) ((x - h) * u) ((x + h) * u) q B.Sw B.lat B.long := by
  have h0 : ¬ (q * B.Sw = 0 ∨ B.lat = 0 ∨ B.long = 0) := by
    rw [← hR.2, hD]
    simp
  push Not at h0
  have h1 := hR.1 _ hD
  rw [hF, hB, hs] at h1
  exact IsCentralDifference.slope hh hu h0.1 h0.2.1 h0.2.2 hf h1

end Verif
