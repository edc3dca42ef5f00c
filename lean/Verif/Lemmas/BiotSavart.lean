import Verif.Spec.BiotSavart
import Verif.Model.LL
import Mathlib.Analysis.SpecialFunctions.Sqrt
import Mathlib.Topology.Algebra.Order.LiminfLimsup

/-! Helper lemmas for the Biot-Savart theorems. -/

namespace Verif
open V3 MeasureTheory Filter Topology

/-- derivative of the antiderivative `(c t - b) / (D √q)` of `q^(-3/2)`, `q = a - 2 b t + c t²`, `D = a c - b²` -/
theorem hasDerivAt_anti {a b c : ℝ} (hD : 0 < a * c - b ^ 2) (t : ℝ)
    (hq : 0 < a - 2 * b * t + c * t ^ 2) :
    HasDerivAt (fun t => (c * t - b) / ((a * c - b ^ 2) * Real.sqrt (a - 2 * b * t + c * t ^ 2)))
      (1 / Real.sqrt (a - 2 * b * t + c * t ^ 2) ^ 3) t := by
  have hs : 0 < Real.sqrt (a - 2 * b * t + c * t ^ 2) := Real.sqrt_pos.mpr hq
  have hss : Real.sqrt (a - 2 * b * t + c * t ^ 2) ^ 2 = a - 2 * b * t + c * t ^ 2 := Real.sq_sqrt hq.le
  have h1 : HasDerivAt (fun t : ℝ => a - 2 * b * t + c * t ^ 2) (-(2 * b) + c * (2 * t)) t := by
    have h2 := ((hasDerivAt_id t).const_mul (2 * b)).const_sub a
    have h3 := ((hasDerivAt_id t).pow 2).const_mul c
    have h4 := h2.add h3
    refine (h4.congr_deriv ?_)
    simp
  have h2 := h1.sqrt hq.ne'
  have h3 : HasDerivAt (fun t : ℝ => c * t - b) c t := by
    have := ((hasDerivAt_id t).const_mul c).sub_const b
    exact this.congr_deriv (by simp)
  have h4 := h3.div (h2.const_mul (a * c - b ^ 2)) (mul_pos hD hs).ne'
  refine h4.congr_deriv ?_
  generalize hS : Real.sqrt (a - 2 * b * t + c * t ^ 2) = s at *
  have hs' := hs.ne'
  have hD' := hD.ne'
  have hDe : ∃ D, D = a * c - b ^ 2 := ⟨_, rfl⟩
  obtain ⟨D, hDe⟩ := hDe
  rw [← hDe] at hD' ⊢
  field_simp
  rw [hss, hDe]
  ring

theorem quad_pos {a b c : ℝ} (hc : 0 < c) (hD : 0 < a * c - b ^ 2) (t : ℝ) : 0 < a - 2 * b * t + c * t ^ 2 := by
  have : 0 < c * (a - 2 * b * t + c * t ^ 2) := by nlinarith [sq_nonneg (c * t - b)]
  exact pos_of_mul_pos_right this hc.le


theorem tendsto_anti {a b : ℝ} (hD : 0 < a * 1 - b ^ 2) :
    Tendsto (fun t : ℝ => (1 * t - b) / ((a * 1 - b ^ 2) * Real.sqrt (a - 2 * b * t + 1 * t ^ 2))) atTop
      (𝓝 (1 / (a * 1 - b ^ 2))) := by
  have h : Tendsto (fun s : ℝ => (1 - b * s) / ((a * 1 - b ^ 2) * Real.sqrt (a * s ^ 2 - 2 * b * s + 1))) (𝓝 0)
      (𝓝 (1 / (a * 1 - b ^ 2))) := by
    have hc : ContinuousAt (fun s : ℝ => (1 - b * s) / ((a * 1 - b ^ 2) * Real.sqrt (a * s ^ 2 - 2 * b * s + 1))) 0 := by
      apply ContinuousAt.div
      · fun_prop
      · fun_prop
      · simp; nlinarith
    have := hc.tendsto
    simpa using this
  have h2 := h.comp tendsto_inv_atTop_zero
  refine h2.congr' ?_
  filter_upwards [eventually_gt_atTop 0] with t ht
  simp only [Function.comp]
  have e : a - 2 * b * t + 1 * t ^ 2 = t ^ 2 * (a * t⁻¹ ^ 2 - 2 * b * t⁻¹ + 1) := by
    have := ht.ne'
    field_simp
  rw [e, Real.sqrt_mul (sq_nonneg t), Real.sqrt_sq ht.le]
  have ht' := ht.ne'
  rw [show (a * 1 - b ^ 2) * (t * Real.sqrt (a * t⁻¹ ^ 2 - 2 * b * t⁻¹ + 1)) =
    t * ((a * 1 - b ^ 2) * Real.sqrt (a * t⁻¹ ^ 2 - 2 * b * t⁻¹ + 1)) by ring,
    show 1 * t - b = t * (1 - b * t⁻¹) by field_simp, mul_div_mul_left _ _ ht']

theorem nrm_cube_eq (r d : V3) (t : ℝ) :
    nrm (r - t • d) = Real.sqrt (dot r r - 2 * dot r d * t + dot d d * t ^ 2) := by
  unfold nrm
  congr 1
  simp [dot]; ring

theorem dot_pos_of_cross {r d : V3} (h : cross r d ≠ 0) :
    0 < dot d d ∧ 0 < dot r r * dot d d - dot r d ^ 2 := by
  have h1 : d ≠ 0 := by rintro rfl; exact h (by simp)
  have h2 : 0 < dot d d := lt_of_le_of_ne (dot_self_nonneg d) (fun h' => h1 (dot_self_eq_zero.mp h'.symm))
  refine ⟨h2, ?_⟩
  have h3 := lagrange r d
  have h4 : 0 < dot (cross r d) (cross r d) :=
    lt_of_le_of_ne (dot_self_nonneg _) (fun h' => h (dot_self_eq_zero.mp h'.symm))
  linarith

/-- scalar integral for the bound segment -/
theorem integral_seg (r d : V3) (h : cross r d ≠ 0) :
    (∫ t in Set.Ioc (0 : ℝ) 1, 1 / nrm (r - t • d) ^ 3) =
      (dot d d - dot r d) / ((dot r r * dot d d - dot r d ^ 2) * nrm (r - d)) +
        dot r d / ((dot r r * dot d d - dot r d ^ 2) * nrm r) ∧
    IntegrableOn (fun t : ℝ => 1 / nrm (r - t • d) ^ 3) (Set.Ioc 0 1) := by
  obtain ⟨hc, hD⟩ := dot_pos_of_cross h
  have hq := fun t => quad_pos hc hD t
  have hcont : Continuous fun t : ℝ => 1 / nrm (r - t • d) ^ 3 := by
    simp only [nrm_cube_eq]
    refine Continuous.div continuous_const (by fun_prop) fun t => ?_
    exact pow_ne_zero _ (Real.sqrt_pos.mpr (hq t)).ne'
  refine ⟨?_, hcont.integrableOn_Ioc⟩
  rw [← intervalIntegral.integral_of_le zero_le_one]
  have := intervalIntegral.integral_eq_sub_of_hasDerivAt (a := (0 : ℝ)) (b := 1)
    (fun t _ => hasDerivAt_anti hD t (hq t)) (by
      have := hcont
      simp only [nrm_cube_eq] at this
      exact this.intervalIntegrable 0 1)
  simp only [nrm_cube_eq]
  rw [this]
  have e1 : nrm (r - d) = Real.sqrt (dot r r - 2 * dot r d * 1 + dot d d * 1 ^ 2) := by
    rw [← nrm_cube_eq, one_smul]
  have e0 : nrm r = Real.sqrt (dot r r - 2 * dot r d * 0 + dot d d * 0 ^ 2) := by
    rw [← nrm_cube_eq, zero_smul, sub_zero]
  rw [← e1, ← e0]
  ring

/-- scalar integral for the trailing leg -/
theorem integral_ray (r u : V3) (hu : nrm u = 1) (h : cross r u ≠ 0) :
    (∫ t in Set.Ioi (0 : ℝ), 1 / nrm (r - t • u) ^ 3) =
      1 / (dot r r - dot r u ^ 2) + dot r u / ((dot r r - dot r u ^ 2) * nrm r) ∧
    IntegrableOn (fun t : ℝ => 1 / nrm (r - t • u) ^ 3) (Set.Ioi 0) := by
  obtain ⟨hc, hD⟩ := dot_pos_of_cross h
  have hu1 : dot u u = 1 := by rw [← nrm_sq, hu]; norm_num
  rw [hu1] at hD hc
  have hq := fun t => quad_pos hc hD t
  have hder := fun t => hasDerivAt_anti hD t (hq t)
  have hlim := tendsto_anti hD
  simp only [nrm_cube_eq, hu1]
  constructor
  · rw [integral_Ioi_of_hasDerivAt_of_nonneg' (fun t _ => hder t) (fun t _ => by positivity) hlim]
    have e0 : nrm r = Real.sqrt (dot r r - 2 * dot r u * 0 + 1 * 0 ^ 2) := by
      unfold nrm; congr 1; ring
    rw [← e0]
    ring
  · exact integrableOn_Ioi_deriv_of_nonneg' (fun t _ => hder t) (fun t _ => by positivity) hlim

theorem seg_point (p q x : V3) (t : ℝ) : x - (p + t • (q - p)) = (x - p) - t • ((x - p) - (x - q)) := by
  ext <;> simp <;> ring

theorem ray_point (p u x : V3) (t : ℝ) : x - (p + t • u) = (x - p) - t • u := by
  ext <;> simp <;> ring

theorem segIntegrand_eq (p q x : V3) (t : ℝ) :
    segIntegrand p q x t = (1 / nrm ((x - p) - t • ((x - p) - (x - q))) ^ 3) • cross (x - p) (x - q) := by
  unfold segIntegrand biotSavart
  rw [seg_point]
  congr 1
  ext <;> simp <;> ring

theorem rayIntegrand_eq (p u x : V3) (t : ℝ) :
    rayIntegrand p u x t = (1 / nrm ((x - p) - t • u) ^ 3) • cross u (x - p) := by
  unfold rayIntegrand biotSavart
  rw [ray_point]
  congr 1
  ext <;> simp <;> ring

theorem vintegral_smul (s : Set ℝ) (f : ℝ → ℝ) (w : V3) :
    vintegral s (fun t => f t • w) = (∫ t in s, f t) • w := by
  unfold vintegral
  ext <;> simp [integral_mul_const]

theorem vintegrable_smul {s : Set ℝ} {f : ℝ → ℝ} (hf : IntegrableOn f s) (w : V3) :
    VIntegrableOn s (fun t => f t • w) :=
  ⟨hf.mul_const _, hf.mul_const _, hf.mul_const _⟩

theorem vintegrable_zero (s : Set ℝ) : VIntegrableOn s (fun _ => (0 : V3)) :=
  ⟨by simp [IntegrableOn], by simp [IntegrableOn], by simp [IntegrableOn]⟩

theorem cross_diff (r1 r2 : V3) : cross r1 (r1 - r2) = - cross r1 r2 := by
  rw [cross_sub, cross_self, zero_sub]

/-- value of the bound integral -/
theorem seg_value {r1 r2 : V3} (h : cross r1 r2 ≠ 0) :
    (dot (r1 - r2) (r1 - r2) - dot r1 (r1 - r2)) /
        ((dot r1 r1 * dot (r1 - r2) (r1 - r2) - dot r1 (r1 - r2) ^ 2) * nrm (r1 - (r1 - r2))) +
      dot r1 (r1 - r2) / ((dot r1 r1 * dot (r1 - r2) (r1 - r2) - dot r1 (r1 - r2) ^ 2) * nrm r1) =
    (nrm r1 + nrm r2) / (nrm r1 * nrm r2 * (nrm r1 * nrm r2 + dot r1 r2)) := by
  have h1 : 0 < nrm r1 := nrm_pos (by rintro rfl; exact h (by simp))
  have h2 : 0 < nrm r2 := nrm_pos (by rintro rfl; exact h (by simp))
  have e1 : dot r1 r1 = nrm r1 ^ 2 := (nrm_sq r1).symm
  have e2 : dot r2 r2 = nrm r2 ^ 2 := (nrm_sq r2).symm
  have hD : 0 < (nrm r1 * nrm r2 - dot r1 r2) * (nrm r1 * nrm r2 + dot r1 r2) := by
    have := (dot_pos_of_cross h).2
    rw [e1, e2] at this
    nlinarith
  have hm : 0 ≤ nrm r1 * nrm r2 - dot r1 r2 := sub_nonneg.mpr (dot_le r1 r2)
  have hp : 0 ≤ nrm r1 * nrm r2 + dot r1 r2 := by linarith [neg_le_dot r1 r2]
  have hm' : 0 < nrm r1 * nrm r2 - dot r1 r2 := lt_of_le_of_ne hm (by rintro h0; rw [← h0] at hD; simp at hD)
  have hp' : 0 < nrm r1 * nrm r2 + dot r1 r2 := lt_of_le_of_ne hp (by rintro h0; rw [← h0] at hD; simp at hD)
  have e3 : r1 - (r1 - r2) = r2 := by abel
  rw [e3]
  have e4 : dot (r1 - r2) (r1 - r2) = nrm r1 ^ 2 - 2 * dot r1 r2 + nrm r2 ^ 2 := by
    rw [sub_dot, dot_sub, dot_sub, dot_comm r2 r1, e1, e2]; ring
  have e5 : dot r1 (r1 - r2) = nrm r1 ^ 2 - dot r1 r2 := by rw [dot_sub, e1]
  rw [e4, e5, e1]
  have e6 : nrm r1 ^ 2 * (nrm r1 ^ 2 - 2 * dot r1 r2 + nrm r2 ^ 2) - (nrm r1 ^ 2 - dot r1 r2) ^ 2 =
    (nrm r1 * nrm r2 - dot r1 r2) * (nrm r1 * nrm r2 + dot r1 r2) := by ring
  rw [e6]
  generalize nrm r1 = a at *
  generalize nrm r2 = b at *
  generalize dot r1 r2 = p at *
  have := h1.ne'; have := h2.ne'; have := hm'.ne'; have := hp'.ne'
  field_simp
  ring

/-- value of the trailing integral -/
theorem ray_value {r u : V3} (hu : nrm u = 1) (h : cross r u ≠ 0) :
    1 / (dot r r - dot r u ^ 2) + dot r u / ((dot r r - dot r u ^ 2) * nrm r) =
      1 / (nrm r * (nrm r - dot u r)) := by
  have h1 : 0 < nrm r := nrm_pos (by rintro rfl; exact h (by simp))
  have e1 : dot r r = nrm r ^ 2 := (nrm_sq r).symm
  have e2 : dot u u = 1 := by rw [← nrm_sq, hu]; norm_num
  have hD : 0 < (nrm r - dot r u) * (nrm r + dot r u) := by
    have := (dot_pos_of_cross h).2
    rw [e1, e2] at this
    nlinarith
  have hm : 0 ≤ nrm r - dot r u := by have := dot_le r u; rw [hu] at this; linarith
  have hp : 0 ≤ nrm r + dot r u := by have := neg_le_dot r u; rw [hu] at this; linarith
  have hm' : 0 < nrm r - dot r u := lt_of_le_of_ne hm (by rintro h0; rw [← h0] at hD; simp at hD)
  have hp' : 0 < nrm r + dot r u := lt_of_le_of_ne hp (by rintro h0; rw [← h0] at hD; simp at hD)
  rw [e1, dot_comm u r, show nrm r ^ 2 - dot r u ^ 2 = (nrm r - dot r u) * (nrm r + dot r u) by ring]
  generalize nrm r = a at *
  generalize dot r u = p at *
  have := h1.ne'; have := hm'.ne'; have := hp'.ne'
  field_simp

end Verif
