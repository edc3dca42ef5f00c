import Verif.Lemmas.BiotSavart
import Verif.Examples.LL

/-!
# Induced velocities are Biot-Savart integrals (C35, C36)
-/

namespace Verif
open V3 MeasureTheory

/-- The denominator of the bound-vortex term vanishes exactly for evaluation points on the segment. -/
theorem C35_denominator (p q x : V3) :
    nrm (x - p) * nrm (x - q) * (nrm (x - p) * nrm (x - q) + dot (x - p) (x - q)) = 0 ↔ OnSegment p q x := by
  constructor
  · intro h
    by_cases h1 : nrm (x - p) = 0
    · refine ⟨0, le_refl _, zero_le_one, ?_⟩
      rw [nrm_eq_zero, sub_eq_zero] at h1
      simp [h1]
    by_cases h2 : nrm (x - q) = 0
    · refine ⟨1, zero_le_one, le_refl _, ?_⟩
      rw [nrm_eq_zero, sub_eq_zero] at h2
      simp [h2]
    have h3 : nrm (x - p) * nrm (x - q) + dot (x - p) (x - q) = 0 := by
      simpa [h1, h2] using h
    have p1 := lt_of_le_of_ne (nrm_nonneg (x - p)) (Ne.symm h1)
    have p2 := lt_of_le_of_ne (nrm_nonneg (x - q)) (Ne.symm h2)
    generalize hr1 : x - p = r1 at *
    generalize hr2 : x - q = r2 at *
    -- |r2| r1 + |r1| r2 = 0
    have h4 : (nrm r2) • r1 + (nrm r1) • r2 = 0 := by
      rw [← dot_self_eq_zero]
      simp only [add_dot, dot_add, smul_dot, dot_smul, dot_comm r2 r1]
      rw [← nrm_mul_self r1, ← nrm_mul_self r2]
      linear_combination 2 * nrm r1 * nrm r2 * h3
    have hs : 0 < nrm r1 + nrm r2 := add_pos p1 p2
    refine ⟨nrm r1 / (nrm r1 + nrm r2), by positivity, (div_le_one hs).mpr (by linarith), ?_⟩
    have hq : q - p = r1 - r2 := by rw [← hr1, ← hr2]; abel
    have hx : x = p + r1 := by rw [← hr1]; abel
    rw [hq, hx]
    congr 1
    have hx4 := congrArg V3.x h4
    have hy4 := congrArg V3.y h4
    have hz4 := congrArg V3.z h4
    simp only [add_x, add_y, add_z, smul_x, smul_y, smul_z, zero_x, zero_y, zero_z] at hx4 hy4 hz4
    ext
    · simp only [smul_x, sub_x]; rw [div_mul_eq_mul_div, eq_div_iff hs.ne']; linear_combination hx4
    · simp only [smul_y, sub_y]; rw [div_mul_eq_mul_div, eq_div_iff hs.ne']; linear_combination hy4
    · simp only [smul_z, sub_z]; rw [div_mul_eq_mul_div, eq_div_iff hs.ne']; linear_combination hz4
  · rintro ⟨t, h0, h1, rfl⟩
    have e1 : p + t • (q - p) - p = t • (q - p) := by abel
    have e2 : p + t • (q - p) - q = (-(1 - t)) • (q - p) := by
      ext <;> simp <;> ring
    rw [e1, e2, nrm_smul, nrm_smul, abs_of_nonneg h0, abs_neg, abs_of_nonneg (by linarith), smul_dot, dot_smul,
      ← nrm_mul_self]
    ring

/-- **C35.** For every segment `p q` and every point `x` not on it, the bound-vortex influence used by the code is the
Biot-Savart integral over the segment (and the integral converges). -/
theorem C35_bound_biotSavart (p q x : V3) (_hx : ¬ OnSegment p q x) :
    VIntegrableOn (Set.Ioc 0 1) (segIntegrand p q x) ∧
    (1 / (4 * Real.pi)) • boundTerm (x - p) (x - q) = filamentVelocity p q x := by
  have heq : segIntegrand p q x = fun t => (1 / nrm ((x - p) - t • ((x - p) - (x - q))) ^ 3) • cross (x - p) (x - q) := by
    funext t; exact segIntegrand_eq p q x t
  unfold filamentVelocity
  rw [heq]
  by_cases hc : cross (x - p) (x - q) = 0
  · rw [hc]
    simp only [smul_zero, boundTerm, hc]
    exact ⟨vintegrable_zero _, by ext <;> simp [vintegral]⟩
  · have hc' : cross (x - p) ((x - p) - (x - q)) ≠ 0 := by
      rw [cross_diff]; exact neg_ne_zero.mpr hc
    obtain ⟨hv, hi⟩ := integral_seg _ _ hc'
    refine ⟨vintegrable_smul hi _, ?_⟩
    rw [vintegral_smul, hv, seg_value hc, boundTerm, smul_smul, smul_smul, smul_smul]
    congr 1
    ring

/-- The denominator of a trailing-vortex term vanishes exactly for evaluation points on the trailing leg. -/
theorem C36_denominator (p u x : V3) (hu : nrm u = 1) :
    nrm (x - p) * (nrm (x - p) - dot u (x - p)) = 0 ↔ OnRay p u x := by
  constructor
  · intro h
    rcases mul_eq_zero.mp h with h1 | h1
    · refine ⟨0, le_refl _, ?_⟩
      rw [nrm_eq_zero, sub_eq_zero] at h1
      simp [h1]
    · refine ⟨nrm (x - p), nrm_nonneg _, ?_⟩
      have h2 : x - p - nrm (x - p) • u = 0 := by
        rw [← dot_self_eq_zero]
        generalize hr : x - p = r at h1 ⊢
        simp only [sub_dot, dot_sub, smul_dot, dot_smul, dot_comm r u]
        rw [← nrm_mul_self u, hu, ← nrm_mul_self r]
        linear_combination 2 * nrm r * h1
      have h3 := sub_eq_zero.mp h2
      rw [← h3]; abel
  · rintro ⟨t, h0, rfl⟩
    have e1 : p + t • u - p = t • u := by abel
    rw [e1, nrm_smul, abs_of_nonneg h0, dot_smul, ← nrm_mul_self, hu]
    ring

/-- **C36.** For every corner point `p`, unit wind vector `u` and every point `x` not on the half line, the trailing
influence used by the code is the Biot-Savart integral over the half line (and the integral converges). -/
theorem C36_trailing_biotSavart (p u x : V3) (hu : nrm u = 1) (_hx : ¬ OnRay p u x) :
    VIntegrableOn (Set.Ioi 0) (rayIntegrand p u x) ∧
    (1 / (4 * Real.pi)) • trailTerm u (x - p) = rayVelocity p u x := by
  have heq : rayIntegrand p u x = fun t => (1 / nrm ((x - p) - t • u) ^ 3) • cross u (x - p) := by
    funext t; exact rayIntegrand_eq p u x t
  unfold rayVelocity
  rw [heq]
  by_cases hc : cross u (x - p) = 0
  · rw [hc]
    simp only [smul_zero, trailTerm, hc]
    exact ⟨vintegrable_zero _, by ext <;> simp [vintegral]⟩
  · have hc' : cross (x - p) u ≠ 0 := by
      rw [cross_anticomm]; exact neg_ne_zero.mpr hc
    obtain ⟨hv, hi⟩ := integral_ray _ _ hu hc'
    refine ⟨vintegrable_smul hi _, ?_⟩
    rw [vintegral_smul, hv, ray_value hu hc', trailTerm]

/-- **C35/C36 for the influence matrix.** For a unit wind vector the code divides by zero iff a control point lies on a
trailing leg or on the bound segment of another horseshoe vortex. -/
theorem C36_influence_defined {ι : Type*} (S : ι → Section) (u : V3) (hu : nrm u = 1) :
    InfluenceDefined S u ↔
      (∀ i j, ¬ OnRay (S j).r1 u (S i).rcp) ∧ (∀ i j, ¬ OnRay (S j).r2 u (S i).rcp) ∧
      (∀ i j, i ≠ j → ¬ OnSegment (S j).r1 (S j).r2 (S i).rcp) := by
  unfold InfluenceDefined
  simp only [ne_eq, C36_denominator _ _ _ hu, C35_denominator]

/-- **C35/C36 for the influence matrix.** Every entry is the Biot-Savart velocity of a horseshoe vortex of unit strength
coming from downstream infinity to `r1`, along the bound segment to `r2` and back to downstream infinity; a section's own
bound segment does not contribute. -/
theorem C36_influence_biotSavart {ι : Type*} [DecidableEq ι] (S : ι → Section) (u : V3) (hu : nrm u = 1)
    (hd : InfluenceDefined S u) (i j : ι) :
    vji S u i j = rayVelocity (S j).r2 u (S i).rcp +
      (if i = j then 0 else filamentVelocity (S j).r1 (S j).r2 (S i).rcp) - rayVelocity (S j).r1 u (S i).rcp := by
  obtain ⟨h1, h2, h3⟩ := (C36_influence_defined S u hu).mp hd
  rw [← (C36_trailing_biotSavart _ u _ hu (h1 i j)).2, ← (C36_trailing_biotSavart _ u _ hu (h2 i j)).2]
  unfold vji
  by_cases hij : i = j
  · subst hij
    simp only [if_true]
    simp only [smul_add, smul_sub, smul_zero]
  · simp only [hij, if_false]
    rw [← (C35_bound_biotSavart _ _ _ (h3 i j hij)).2]
    simp only [smul_add, smul_sub]

-- the hypotheses are met, off the axis of the segment too
example : ¬ OnSegment ⟨0, 0, 0⟩ ⟨0, 1, 0⟩ ⟨0, 0, 1⟩ := by
  rintro ⟨t, _, _, h⟩
  have := congrArg V3.z h
  simp at this
example : ¬ OnRay ⟨0, 0, 0⟩ ⟨-1, 0, 0⟩ ⟨-3, 1, 0⟩ ∧ nrm ⟨-1, 0, 0⟩ = 1 := by
  constructor
  · rintro ⟨t, _, h⟩
    have := congrArg V3.y h
    simp at this
  · rw [nrm_x]; norm_num
example : InfluenceDefined exGeom.S exFlow.u ∧ nrm exFlow.u = 1 :=
  ⟨ex_defined.1, by rw [show exFlow.u = ⟨-1, 0, 0⟩ from rfl, nrm_x]; norm_num⟩

end Verif
