import Verif.Spec.Jet
import Mathlib.Analysis.SpecialFunctions.Gaussian.GaussianIntegral
import Mathlib.MeasureTheory.Integral.IntegralEqImproper
import Mathlib.Analysis.SpecialFunctions.Integrals.Basic

/-! # Fluxes of the profiles -/

namespace Verif.Jet
open MeasureTheory Set

theorem bell_moment {k : ℝ} (hk : 0 < k) : ∫ r in Ioi (0 : ℝ), r * Real.exp (-k * r ^ 2) = 1 / (2 * k) := by
  have hint : IntegrableOn (fun r : ℝ => r * Real.exp (-k * r ^ 2)) (Ioi 0) := (integrable_mul_exp_neg_mul_sq hk).integrableOn
  have hd : ∀ r ∈ Ici (0 : ℝ), HasDerivAt (fun r => -(1 / (2 * k)) * Real.exp (-k * r ^ 2)) (r * Real.exp (-k * r ^ 2)) r := by
    intro r _
    have h1 : HasDerivAt (fun r : ℝ => -k * r ^ 2) (-k * (2 * r)) r := by
      simpa using (hasDerivAt_pow 2 r).const_mul (-k)
    have := (h1.exp).const_mul (-(1 / (2 * k)))
    convert! this using 1
    field_simp
  have ht : Filter.Tendsto (fun r : ℝ => -(1 / (2 * k)) * Real.exp (-k * r ^ 2)) Filter.atTop (nhds 0) := by
    have : Filter.Tendsto (fun r : ℝ => Real.exp (-k * r ^ 2)) Filter.atTop (nhds 0) := by
      refine Real.tendsto_exp_atBot.comp ?_
      exact (Filter.tendsto_pow_atTop (by norm_num)).const_mul_atTop_of_neg (by linarith)
    simpa using this.const_mul (-(1 / (2 * k)))
  have := integral_Ioi_of_hasDerivAt_of_tendsto' hd hint ht
  rw [this]
  simp

/-- an integrand that vanishes beyond `c` -/
theorem integral_upto {f g : ℝ → ℝ} {c : ℝ} (hc : 0 ≤ c) (h1 : ∀ r, 0 < r → r < c → f r = g r) (h2 : ∀ r, c < r → f r = 0) :
    ∫ r in Ioi (0 : ℝ), f r = ∫ r in (0 : ℝ)..c, g r := by
  rw [intervalIntegral.integral_of_le hc, ← integral_Ioc_eq_integral_Ioo.symm, ← integral_indicator measurableSet_Ioi,
    ← integral_indicator measurableSet_Ioo]
  refine integral_congr_ae ?_
  have : ∀ᵐ r : ℝ, r ≠ c := by simp [ae_iff]
  filter_upwards [this] with r hr
  by_cases h : 0 < r
  · rcases lt_or_gt_of_ne hr with h' | h'
    · rw [indicator_of_mem (mem_Ioi.2 h), indicator_of_mem (show r ∈ Ioo 0 c from ⟨h, h'⟩), h1 r h h']
    · rw [indicator_of_mem (mem_Ioi.2 h), indicator_of_notMem (show r ∉ Ioo 0 c from fun hh => absurd hh.2 (not_lt.2 h'.le)), h2 r h']
  · rw [indicator_of_notMem (show r ∉ Ioi 0 from h), indicator_of_notMem (show r ∉ Ioo 0 c from fun hh => h hh.1)]

/-- the same for integrability -/
theorem integrable_upto {f g : ℝ → ℝ} {c : ℝ} (hg : Continuous g) (h1 : ∀ r, 0 < r → r < c → f r = g r) (h2 : ∀ r, c < r → f r = 0) :
    IntegrableOn f (Ioi 0) := by
  have : IntegrableOn g (Ioo 0 c) := (hg.integrableOn_Icc (a := 0) (b := c)).mono_set Ioo_subset_Icc_self
  have h3 := (integrable_indicator_iff measurableSet_Ioo).2 this
  rw [← integrable_indicator_iff measurableSet_Ioi]
  refine h3.congr ?_
  have : ∀ᵐ r : ℝ, r ≠ c := by simp [ae_iff]
  filter_upwards [this] with r hr
  by_cases h : 0 < r
  · rcases lt_or_gt_of_ne hr with h' | h'
    · rw [indicator_of_mem (mem_Ioi.2 h), indicator_of_mem (show r ∈ Ioo 0 c from ⟨h, h'⟩), h1 r h h']
    · rw [indicator_of_mem (mem_Ioi.2 h), indicator_of_notMem (show r ∉ Ioo 0 c from fun hh => absurd hh.2 (not_lt.2 h'.le)), h2 r h']
  · rw [indicator_of_notMem (show r ∉ Ioi 0 from h), indicator_of_notMem (show r ∉ Ioo 0 c from fun hh => h hh.1)]

theorem flow_hat {B : ℝ} (hB : 0 ≤ B) (U : ℝ) : flow (hat B U) = B * B * U / 2 := by
  unfold flow
  rw [integral_upto hB (g := fun r => U * r) (fun r _ h => by rw [hat, if_pos h.le]) (fun r h => by rw [hat, if_neg (not_le.2 h), zero_mul])]
  rw [intervalIntegral.integral_const_mul, integral_id]
  ring

theorem thrust_hat {B : ℝ} (hB : 0 ≤ B) (Vs U W : ℝ) : thrust Vs (hat B U) (hat B W) = B * B / 2 * (U * (U + Vs) - W * W / 2) := by
  unfold thrust
  rw [integral_upto hB (g := fun r => (U * (U + Vs) - W ^ 2 / 2) * r) (fun r _ h => by rw [hat, hat, if_pos h.le, if_pos h.le])
    (fun r h => by rw [hat, hat, if_neg (not_le.2 h), if_neg (not_le.2 h)]; ring)]
  rw [intervalIntegral.integral_const_mul, integral_id]
  ring

theorem torque_hat {B : ℝ} (hB : 0 ≤ B) (Vs U W : ℝ) : torque Vs (hat B U) (hat B W) = B * B * B / 3 * (U + Vs) * W := by
  unfold torque
  rw [integral_upto hB (g := fun r => ((U + Vs) * W) * r ^ 2) (fun r _ h => by rw [hat, hat, if_pos h.le, if_pos h.le])
    (fun r h => by rw [hat, hat, if_neg (not_le.2 h), if_neg (not_le.2 h)]; ring)]
  rw [intervalIntegral.integral_const_mul, integral_pow]
  norm_num
  ring

theorem flow_bell {b : ℝ} (hb : 0 < b) (um : ℝ) : flow (bell b um) = b * b * um / 2 := by
  unfold flow bell
  have h := bell_moment (k := 1 / b ^ 2) (by positivity)
  have e : ∀ r : ℝ, um * Real.exp (-(r / b) ^ 2) * r = um * (r * Real.exp (-(1 / b ^ 2) * r ^ 2)) := by
    intro r
    rw [show -(r / b) ^ 2 = -(1 / b ^ 2) * r ^ 2 by rw [div_pow]; ring]
    ring
  simp_rw [e]
  rw [integral_const_mul, h]
  field_simp

/-- the suction of the swirl -/
theorem suction_tent {rm c : ℝ} (h0 : 0 < rm) (h1 : rm < c) (wm : ℝ) :
    IntegrableOn (fun r => tent rm c wm r ^ 2 / 2 * r) (Ioi 0) ∧
    ∫ r in Ioi (0 : ℝ), tent rm c wm r ^ 2 / 2 * r =
      0.5 * (wm * rm / 2) ^ 2 + 0.5 * (wm / (rm - c)) ^ 2 * (-(3 * rm ^ 4 - 8 * c * rm ^ 3 + 6 * c * c * rm * rm - c ^ 4) / 12) := by
  have hc : 0 < c := h0.trans h1
  have hcr : c - rm ≠ 0 := (sub_pos.2 h1).ne'
  -- a continuous function that agrees with the profile
  set g : ℝ → ℝ := fun r => (if r ≤ rm then wm * r / rm else wm * (c - r) / (c - rm)) ^ 2 / 2 * r with hg
  have hgc : Continuous g := by
    refine Continuous.mul (Continuous.div_const (Continuous.pow ?_ 2) 2) continuous_id
    refine Continuous.if_le (by fun_prop) (by fun_prop) continuous_id continuous_const ?_
    intro r hr
    have : r = rm := hr
    subst this
    field_simp
  have e1 : ∀ r, 0 < r → r < c → tent rm c wm r ^ 2 / 2 * r = g r := by
    intro r _ h
    simp only [hg, tent]
    by_cases hr : r ≤ rm
    · rw [if_pos hr, if_pos hr]
    · rw [if_neg hr, if_neg hr, if_pos h.le]
  have e2 : ∀ r, c < r → tent rm c wm r ^ 2 / 2 * r = 0 := by
    intro r h
    rw [tent, if_neg (not_le.2 (h1.trans h)), if_neg (not_le.2 h)]
    ring
  refine ⟨integrable_upto hgc e1 e2, ?_⟩
  rw [integral_upto hc.le e1 e2, ← intervalIntegral.integral_add_adjacent_intervals (b := rm) (hgc.intervalIntegrable _ _) (hgc.intervalIntegrable _ _)]
  have i1 : ∫ r in (0 : ℝ)..rm, g r = ∫ r in (0 : ℝ)..rm, (wm / rm) ^ 2 / 2 * r ^ 3 := by
    refine intervalIntegral.integral_congr fun r hr => ?_
    rw [uIcc_of_le h0.le] at hr
    simp only [hg]
    rw [if_pos hr.2]
    ring
  have i2 : ∫ r in rm..c, g r = ∫ r in rm..c, ((wm / (c - rm)) ^ 2 / 2 * r ^ 3 + (-((wm / (c - rm)) ^ 2 * c) * r ^ 2 + (wm / (c - rm)) ^ 2 / 2 * c ^ 2 * r)) := by
    refine intervalIntegral.integral_congr fun r hr => ?_
    rw [uIcc_of_le h1.le] at hr
    simp only [hg]
    by_cases h : r ≤ rm
    · have : r = rm := le_antisymm h hr.1
      subst this
      rw [if_pos le_rfl]
      field_simp
      ring
    · rw [if_neg h]
      ring
  rw [i1, i2, intervalIntegral.integral_const_mul, intervalIntegral.integral_add (by apply Continuous.intervalIntegrable; fun_prop) (by apply Continuous.intervalIntegrable; fun_prop),
    intervalIntegral.integral_add (by apply Continuous.intervalIntegrable; fun_prop) (by apply Continuous.intervalIntegrable; fun_prop),
    intervalIntegral.integral_const_mul, intervalIntegral.integral_const_mul, intervalIntegral.integral_const_mul, integral_pow, integral_pow, integral_pow, integral_id]
  have : rm - c ≠ 0 := (sub_neg.2 h1).ne
  have e3 : (wm / (rm - c)) ^ 2 = (wm / (c - rm)) ^ 2 := by
    rw [show rm - c = -(c - rm) by ring, div_neg, neg_sq]
  rw [e3]
  generalize (wm / (c - rm)) ^ 2 = K
  push_cast
  field_simp
  ring

theorem bell_thrust {b : ℝ} (hb : 0 < b) (um Vs : ℝ) :
    IntegrableOn (fun r => bell b um r * (bell b um r + Vs) * r) (Ioi 0) ∧
    ∫ r in Ioi (0 : ℝ), bell b um r * (bell b um r + Vs) * r = 0.25 * (b * b * um) * (um + 2 * Vs) := by
  have k1 : 0 < 1 / b ^ 2 := by positivity
  have k2 : 0 < 2 / b ^ 2 := by positivity
  have e : (fun r : ℝ => bell b um r * (bell b um r + Vs) * r) =
      fun r => um ^ 2 * (r * Real.exp (-(2 / b ^ 2) * r ^ 2)) + um * Vs * (r * Real.exp (-(1 / b ^ 2) * r ^ 2)) := by
    funext r
    have h2 : Real.exp (-(2 / b ^ 2) * r ^ 2) = Real.exp (-(r / b) ^ 2) * Real.exp (-(r / b) ^ 2) := by
      rw [← Real.exp_add]
      congr 1
      rw [div_pow]
      ring
    have h1 : Real.exp (-(1 / b ^ 2) * r ^ 2) = Real.exp (-(r / b) ^ 2) := by
      congr 1
      rw [div_pow]
      ring
    rw [h1, h2]
    unfold bell
    ring
  have j1 : IntegrableOn (fun r : ℝ => um ^ 2 * (r * Real.exp (-(2 / b ^ 2) * r ^ 2))) (Ioi 0) :=
    ((integrable_mul_exp_neg_mul_sq k2).const_mul _).integrableOn
  have j2 : IntegrableOn (fun r : ℝ => um * Vs * (r * Real.exp (-(1 / b ^ 2) * r ^ 2))) (Ioi 0) :=
    ((integrable_mul_exp_neg_mul_sq k1).const_mul _).integrableOn
  rw [e]
  refine ⟨j1.add j2, ?_⟩
  rw [integral_add j1 j2, integral_const_mul, integral_const_mul, bell_moment k1, bell_moment k2]
  field_simp
  norm_num
  ring

theorem thrust_bell_tent {b rm c : ℝ} (hb : 0 < b) (h0 : 0 < rm) (h1 : rm < c) (Vs um wm : ℝ) :
    thrust Vs (bell b um) (tent rm c wm) = 0.25 * (b * b * um) * (um + 2 * Vs) - 0.5 * (wm * rm / 2) ^ 2 -
      0.5 * (wm / (rm - c)) ^ 2 * (-(3 * rm ^ 4 - 8 * c * rm ^ 3 + 6 * c * c * rm * rm - c ^ 4) / 12) := by
  obtain ⟨a1, a2⟩ := bell_thrust hb um Vs
  obtain ⟨s1, s2⟩ := suction_tent h0 h1 wm
  unfold thrust
  simp_rw [sub_mul]
  rw [integral_sub a1 s1, a2, s2]
  ring

/-- the part of a bell-shaped profile that begins at the radius `R` -/
theorem shifted_bell {b : ℝ} (hb : 0 < b) (R um Vs : ℝ) :
    ∫ r in Ioi R, bell b um (r - R) * (bell b um (r - R) + Vs) * r =
      um ^ 2 * b * (R * Real.sqrt Real.pi / (2 * Real.sqrt 2) + b / 4) + um * Vs * b * (R * Real.sqrt Real.pi / 2 + b / 2) := by
  have hs : ∀ f : ℝ → ℝ, ∫ r in Ioi R, f (r - R) = ∫ t in Ioi (0 : ℝ), f t := by
    intro f
    have := (measurePreserving_sub_right volume R).setIntegral_preimage_emb (MeasurableEquiv.subRight R).measurableEmbedding f (Ioi 0)
    rw [← this]
    congr 2
    ext x
    simp
  have h := hs fun t => bell b um t * (bell b um t + Vs) * (t + R)
  simp only [sub_add_cancel] at h
  rw [h]
  obtain ⟨a1, a2⟩ := bell_thrust hb um Vs
  have k1 : 0 < 1 / b ^ 2 := by positivity
  have k2 : 0 < 2 / b ^ 2 := by positivity
  have e : (fun t : ℝ => bell b um t * (bell b um t + Vs) * (t + R)) = fun t => bell b um t * (bell b um t + Vs) * t +
      (R * um ^ 2 * Real.exp (-(2 / b ^ 2) * t ^ 2) + R * (um * Vs) * Real.exp (-(1 / b ^ 2) * t ^ 2)) := by
    funext r
    have h2 : Real.exp (-(2 / b ^ 2) * r ^ 2) = Real.exp (-(r / b) ^ 2) * Real.exp (-(r / b) ^ 2) := by
      rw [← Real.exp_add]
      congr 1
      rw [div_pow]
      ring
    have h1 : Real.exp (-(1 / b ^ 2) * r ^ 2) = Real.exp (-(r / b) ^ 2) := by
      congr 1
      rw [div_pow]
      ring
    rw [h1, h2]
    unfold bell
    ring
  have j1 : IntegrableOn (fun t : ℝ => R * um ^ 2 * Real.exp (-(2 / b ^ 2) * t ^ 2)) (Ioi 0) :=
    ((integrable_exp_neg_mul_sq k2).const_mul _).integrableOn
  have j2 : IntegrableOn (fun t : ℝ => R * (um * Vs) * Real.exp (-(1 / b ^ 2) * t ^ 2)) (Ioi 0) :=
    ((integrable_exp_neg_mul_sq k1).const_mul _).integrableOn
  have j12 : IntegrableOn (fun t : ℝ => R * um ^ 2 * Real.exp (-(2 / b ^ 2) * t ^ 2) + R * (um * Vs) * Real.exp (-(1 / b ^ 2) * t ^ 2)) (Ioi 0) := j1.add j2
  rw [e, integral_add a1 j12, a2, integral_add j1 j2, integral_const_mul, integral_const_mul, integral_gaussian_Ioi, integral_gaussian_Ioi]
  have q1 : Real.sqrt (Real.pi / (1 / b ^ 2)) = Real.sqrt Real.pi * b := by
    rw [div_div_eq_mul_div, div_one, Real.sqrt_mul Real.pi_pos.le, Real.sqrt_sq hb.le]
  have q2 : Real.sqrt (Real.pi / (2 / b ^ 2)) = Real.sqrt Real.pi * b / Real.sqrt 2 := by
    rw [div_div_eq_mul_div, Real.sqrt_div' _ (by norm_num), Real.sqrt_mul Real.pi_pos.le, Real.sqrt_sq hb.le]
  rw [q1, q2]
  have : Real.sqrt 2 ≠ 0 := by positivity
  field_simp
  norm_num
  ring

end Verif.Jet
