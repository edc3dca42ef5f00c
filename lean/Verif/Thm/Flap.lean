import Verif.Model.Grid
import Mathlib.Analysis.SpecialFunctions.Trigonometric.Bounds
import Mathlib.Analysis.SpecialFunctions.Trigonometric.Arctan
import Mathlib.Analysis.Real.Pi.Bounds

/-!
# C17: flap effectiveness

`epsF` is the theoretical (thin airfoil) effectiveness, `etaH` the hinge efficiency; a section gets their product
(`section_flap`).
-/

namespace Verif
open Real

theorem epsF_zero : epsF 0 = 0 := by
  unfold epsF
  simp [Real.arccos_neg_one, Real.pi_ne_zero]

theorem epsF_one : epsF 1 = 1 := by
  unfold epsF
  norm_num

/-- `θ - sin θ` is strictly increasing -/
theorem sub_sin_strictMono : StrictMono fun θ : ℝ => θ - Real.sin θ := by
  intro a b hab
  have h : Real.sin b - Real.sin a < b - a := by
    rw [Real.sin_sub_sin]
    have h1 : Real.sin ((b - a) / 2) < (b - a) / 2 := Real.sin_lt (by linarith)
    have h2 : -((b - a) / 2) < Real.sin ((b - a) / 2) := by
      rcases le_total ((b - a) / 2) Real.pi with h | h
      · have := Real.sin_nonneg_of_nonneg_of_le_pi (by linarith : 0 ≤ (b - a) / 2) h
        linarith
      · have := Real.neg_one_le_sin ((b - a) / 2)
        have := Real.pi_gt_three
        linarith
    have h3 := Real.cos_le_one ((b + a) / 2)
    have h4 := Real.neg_one_le_cos ((b + a) / 2)
    have h5 : |Real.sin ((b - a) / 2)| < (b - a) / 2 := abs_lt.2 ⟨h2, h1⟩
    have h6 : |Real.cos ((b + a) / 2)| ≤ 1 := Real.abs_cos_le_one _
    have h7 : Real.sin ((b - a) / 2) * Real.cos ((b + a) / 2) ≤ |Real.sin ((b - a) / 2)| := by
      calc _ ≤ |Real.sin ((b - a) / 2) * Real.cos ((b + a) / 2)| := le_abs_self _
        _ = |Real.sin ((b - a) / 2)| * |Real.cos ((b + a) / 2)| := abs_mul _ _
        _ ≤ |Real.sin ((b - a) / 2)| * 1 := by gcongr
        _ = _ := mul_one _
    nlinarith
  simp only
  linarith

theorem epsF_lt {a b : ℝ} (h0 : 0 ≤ a) (hab : a < b) (h1 : b ≤ 1) : epsF a < epsF b := by
  unfold epsF
  have h : Real.arccos (2 * b - 1) < Real.arccos (2 * a - 1) :=
    Real.strictAntiOn_arccos ⟨by linarith, by linarith⟩ ⟨by linarith, by linarith⟩ (by linarith)
  have h' := sub_sin_strictMono h
  simp only at h'
  have := div_lt_div_of_pos_right h' Real.pi_pos
  linarith

theorem epsF_le {a b : ℝ} (h0 : 0 ≤ a) (hab : a ≤ b) (h1 : b ≤ 1) : epsF a ≤ epsF b := by
  rcases eq_or_lt_of_le hab with h | h
  · rw [h]
  · exact (epsF_lt h0 h h1).le

theorem etaH_le_of_le {a b : ℝ} (isSealed : Bool) (hab : a ≤ b) : etaH isSealed a ≤ etaH isSealed b := by
  have h : Real.arctan ((a + 0.006527) * 89.2574 + 4.898015) ≤ Real.arctan ((b + 0.006527) * 89.2574 + 4.898015) := by
    apply Real.arctan_mono
    nlinarith
  unfold etaH
  cases isSealed <;> simp only <;> norm_num at h ⊢ <;> linarith

/-- lower bound of the hinge efficiency at zero chord -/
theorem etaH_zero_pos : 0 < etaH true 0 := by
  have h : 1.311 ≤ Real.arctan ((0 + 0.006527) * 89.2574 + 4.898015) := by
    have hx : (0 : ℝ) < (0 + 0.006527) * 89.2574 + 4.898015 := by norm_num
    have h1 := Real.arctan_inv_of_pos hx
    have h2 : Real.arctan ((0 + 0.006527) * 89.2574 + 4.898015 : ℝ)⁻¹ ≤ ((0 + 0.006527) * 89.2574 + 4.898015 : ℝ)⁻¹ := by
      have hy : (0 : ℝ) < ((0 + 0.006527) * 89.2574 + 4.898015 : ℝ)⁻¹ := inv_pos.2 hx
      by_contra hcon
      push Not at hcon
      have h3 := Real.lt_tan (x := Real.arctan ((0 + 0.006527) * 89.2574 + 4.898015 : ℝ)⁻¹)
        (hy.trans hcon) (Real.arctan_lt_pi_div_two _)
      rw [Real.tan_arctan] at h3
      linarith
    have h4 : ((0 + 0.006527) * 89.2574 + 4.898015 : ℝ)⁻¹ ≤ 0.25 := by
      rw [inv_le_comm₀ hx (by norm_num)]; norm_num
    have hp := Real.pi_gt_d2
    linarith
  unfold etaH
  simp only [if_true]
  linarith

/-- upper bound of the hinge efficiency at full chord -/
theorem etaH_one_lt : etaH true 1 < 1 := by
  have h : Real.arctan ((1 + 0.006527) * 89.2574 + 4.898015) ≤ 1.5626 := by
    have hx : (0 : ℝ) < (1 + 0.006527) * 89.2574 + 4.898015 := by norm_num
    have h1 := Real.arctan_inv_of_pos hx
    have h2 : (0.0083 : ℝ) ≤ Real.arctan ((1 + 0.006527) * 89.2574 + 4.898015 : ℝ)⁻¹ := by
      have hpi := Real.pi_gt_three
      have ht : Real.tan 0.0083 ≤ ((1 + 0.006527) * 89.2574 + 4.898015 : ℝ)⁻¹ := by
        rw [Real.tan_eq_sin_div_cos]
        have hs : Real.sin 0.0083 ≤ 0.0083 := Real.sin_le (by norm_num)
        have hc : (1 : ℝ) - 0.0083 ^ 2 / 2 ≤ Real.cos 0.0083 := Real.one_sub_sq_div_two_le_cos
        have hc0 : (0.99 : ℝ) ≤ Real.cos 0.0083 := le_trans (by norm_num) hc
        calc Real.sin 0.0083 / Real.cos 0.0083 ≤ 0.0083 / 0.99 := by
              apply div_le_div₀ (by norm_num) hs (by norm_num) hc0
          _ ≤ _ := by norm_num
      have := Real.arctan_mono ht
      rwa [Real.arctan_tan (by linarith) (by linarith)] at this
    have hp := Real.pi_lt_d4
    linarith
  unfold etaH
  simp only [if_true]
  linarith

/-- For flap chord fractions in [0,1] the theoretical flap effectiveness is 0 without a flap, 1 for an
all-moving surface, in [0,1] in between and strictly increasing. -/
theorem eps_range :
    epsF 0 = 0 ∧ epsF 1 = 1 ∧ (∀ cf, 0 ≤ cf → cf ≤ 1 → 0 ≤ epsF cf ∧ epsF cf ≤ 1) ∧
    (∀ a b, 0 ≤ a → a < b → b ≤ 1 → epsF a < epsF b) := by
  refine ⟨epsF_zero, epsF_one, ?_, fun a b => epsF_lt⟩
  intro cf h0 h1
  constructor
  · rw [← epsF_zero]; exact epsF_le le_rfl h0 h1
  · rw [← epsF_one]; exact epsF_le h0 h1 le_rfl

/-- An unsealed gap gives exactly 0.8 times the sealed effectiveness; the effectiveness a
section gets (hinge efficiency times theoretical effectiveness) is in [0,1] and does not decrease with the chord
fraction. -/
theorem eff_range :
    (∀ cf, etaH false cf * epsF cf = 0.8 * (etaH true cf * epsF cf)) ∧
    (∀ isSealed cf, 0 ≤ cf → cf ≤ 1 → 0 ≤ etaH isSealed cf * epsF cf ∧ etaH isSealed cf * epsF cf ≤ 1) ∧
    (∀ isSealed a b, 0 ≤ a → a ≤ b → b ≤ 1 → etaH isSealed a * epsF a ≤ etaH isSealed b * epsF b) := by
  have hun : ∀ cf, etaH false cf = 0.8 * etaH true cf := by intro cf; unfold etaH; simp; ring
  have hpos : ∀ isSealed cf, 0 ≤ cf → cf ≤ 1 → 0 ≤ etaH isSealed cf ∧ etaH isSealed cf ≤ 1 := by
    intro isSealed cf h0 h1
    have h2 := etaH_le_of_le true h0
    have h3 := etaH_le_of_le true h1
    have h4 := etaH_zero_pos
    have h5 := etaH_one_lt
    cases isSealed
    · rw [hun]; constructor <;> nlinarith
    · constructor <;> linarith
  have heps := eps_range.2.2.1
  refine ⟨?_, ?_, ?_⟩
  · intro cf; rw [hun]; ring
  · intro isSealed cf h0 h1
    obtain ⟨a1, a2⟩ := hpos isSealed cf h0 h1
    obtain ⟨b1, b2⟩ := heps cf h0 h1
    exact ⟨mul_nonneg a1 b1, mul_le_one₀ a2 b1 b2⟩
  · intro isSealed a b h0 hab h1
    exact mul_le_mul (etaH_le_of_le isSealed hab) (epsF_le h0 hab h1) (heps a h0 (hab.trans h1)).1
      (hpos isSealed b (h0.trans hab) h1).1

/-- The flap moment coefficient is never nose-up and vanishes without a flap and for an all-moving
surface. -/
theorem moment_sign : cmD 0 = 0 ∧ cmD 1 = 0 ∧ ∀ cf, cmD cf ≤ 0 := by
  refine ⟨?_, ?_, ?_⟩
  · unfold cmD; simp [Real.arccos_neg_one]
  · unfold cmD; norm_num
  · intro cf
    unfold cmD
    rw [Real.sin_two_mul]
    have h1 : 0 ≤ Real.sin (Real.arccos (2 * cf - 1)) :=
      Real.sin_nonneg_of_nonneg_of_le_pi (Real.arccos_nonneg _) (Real.arccos_le_pi _)
    have h2 := Real.cos_le_one (Real.arccos (2 * cf - 1))
    nlinarith

end Verif
