import Verif.Model.Stl
import Verif.Spec.Naca
import Mathlib.Analysis.SpecialFunctions.Trigonometric.Bounds

/-!
# The drawn NACA sections (C76)
-/

namespace Verif

variable {flt : List Char → Option ℝ} {l : List Char} {m p t : ℝ} {O : ℕ → ℝ × ℝ}

theorem camber_eq (k : Naca) : nacaCamber k = camberLine k.m k.p := by
  funext x
  unfold nacaCamber camberLine
  split_ifs <;> ring

theorem thickness_eq (t x : ℝ) : nacaThickness t x = halfThickness t x := by
  unfold nacaThickness halfThickness
  ring

theorem outTheta_eq (j : ℕ) : outTheta j = Real.pi * (2 * j / 49 - 1) := by
  unfold outTheta nOut
  push_cast
  ring

theorem signum_eq (j : ℕ) : signum (outTheta j) = outSide j := by
  rw [outTheta_eq]
  unfold signum outSide
  by_cases h : j < 25
  · have h' : (j : ℝ) ≤ 24 := by exact_mod_cast Nat.lt_succ_iff.1 h
    have h0 : Real.pi * (2 * j / 49 - 1) < 0 := mul_neg_of_pos_of_neg Real.pi_pos (by linarith)
    rw [if_neg (by linarith), if_pos h0, if_pos h]
  · have h' : (25 : ℝ) ≤ j := by exact_mod_cast Nat.le_of_not_lt h
    have h0 : 0 < Real.pi * (2 * j / 49 - 1) := mul_pos Real.pi_pos (by linarith)
    rw [if_pos h0, if_neg h]

/-- what is drawn: along the direction `nacaSlope`, which is the normal where that is the slope of the camber line -/
theorem plot_point (h : plotNACA flt l = .ok O) (hd : FourDigits flt l m p t) :
    (m ≠ 0 → p ≠ 1) ∧ ∀ j, let s := nacaSlope ⟨m, p, t⟩ (outStation j)
      1 / 4 - (O j).1 = outStation j - outSide j * halfThickness t (outStation j) * (s / Real.sqrt (1 + s ^ 2)) ∧
      -(O j).2 = camberLine m p (outStation j) + outSide j * halfThickness t (outStation j) * (1 / Real.sqrt (1 + s ^ 2)) := by
  obtain ⟨a, b, c, d, A, B, T, rfl, h1, h2, h3, rfl, rfl, rfl⟩ := hd
  unfold plotNACA parseNaca at h
  simp only [h1, h2, List.take_succ_cons, List.take_zero, h3, bind, Except.bind] at h
  split_ifs at h with hc
  refine ⟨fun hm hp => hc ⟨hm, hp⟩, fun j => ?_⟩
  simp only [pure, Except.pure, Except.ok.injEq] at h
  rw [← h]
  simp only [nacaXZ, nacaPoint]
  have hx : 0.5 * (1 - Real.cos (outTheta j)) = outStation j := by rw [outTheta_eq]; unfold outStation; ring
  rw [hx, signum_eq, thickness_eq, camber_eq, Real.sin_arctan, Real.cos_arctan]
  constructor
  · ring
  · ring

theorem camber_deriv_fore {m p x : ℝ} (hm : m ≠ 0) (hp : p ≠ 0) (hx : x < p) (t : ℝ) :
    HasDerivAt (camberLine m p) (nacaSlope ⟨m, p, t⟩ x) x := by
  have h0 : ¬ (m = 0 ∨ p = 0) := by tauto
  have e : nacaSlope ⟨m, p, t⟩ x = m / p ^ 2 * (2 * p - 2 * x) := by
    unfold nacaSlope
    rw [if_neg h0, if_pos hx]; ring
  have h1 : HasDerivAt (fun y => m / p ^ 2 * (2 * p * y - y ^ 2)) (m / p ^ 2 * (2 * p - 2 * x)) x := by
    have := (((hasDerivAt_id x).const_mul (2 * p)).sub ((hasDerivAt_id x).pow 2)).const_mul (m / p ^ 2)
    refine this.congr_deriv ?_
    simp only [id]; ring
  rw [e]
  refine h1.congr_of_eventuallyEq ?_
  filter_upwards [Iio_mem_nhds hx] with y hy
  unfold camberLine
  rw [if_neg h0, if_pos (Set.mem_Iio.1 hy)]

/-- aft of the maximum camber the camber line has twice the slope used for drawing -/
theorem camber_deriv_aft {m p x : ℝ} (hm : m ≠ 0) (hp : p ≠ 0) (hx : p < x) (t : ℝ) :
    HasDerivAt (camberLine m p) (2 * nacaSlope ⟨m, p, t⟩ x) x := by
  have h0 : ¬ (m = 0 ∨ p = 0) := by tauto
  have e : 2 * nacaSlope ⟨m, p, t⟩ x = m / (1 - p) ^ 2 * (2 * p - 2 * x) := by
    unfold nacaSlope
    rw [if_neg h0, if_neg (not_lt.2 hx.le)]; ring
  have h1 : HasDerivAt (fun y => m / (1 - p) ^ 2 * ((1 - 2 * p) + 2 * p * y - y ^ 2)) (m / (1 - p) ^ 2 * (2 * p - 2 * x)) x := by
    have := ((((hasDerivAt_id x).const_mul (2 * p)).const_add (1 - 2 * p)).sub ((hasDerivAt_id x).pow 2)).const_mul (m / (1 - p) ^ 2)
    refine this.congr_deriv ?_
    simp only [id]; ring
  rw [e]
  refine h1.congr_of_eventuallyEq ?_
  filter_upwards [Ioi_mem_nhds hx] with y hy
  unfold camberLine
  rw [if_neg h0, if_neg (not_lt.2 (le_of_lt hy))]

/-- at the maximum camber both parts are level -/
theorem camber_deriv_top {m p : ℝ} (hm : m ≠ 0) (hp : p ≠ 0) (hp1 : p ≠ 1) : HasDerivAt (camberLine m p) 0 p := by
  have h0 : ¬ (m = 0 ∨ p = 0) := by tauto
  have hq : (1 - p) ≠ 0 := sub_ne_zero.2 hp1.symm
  have h1 : HasDerivAt (fun y => m / p ^ 2 * (2 * p * y - y ^ 2)) 0 p := by
    have := (((hasDerivAt_id p).const_mul (2 * p)).sub ((hasDerivAt_id p).pow 2)).const_mul (m / p ^ 2)
    refine this.congr_deriv ?_
    simp only [id]; ring
  have h2 : HasDerivAt (fun y => m / (1 - p) ^ 2 * ((1 - 2 * p) + 2 * p * y - y ^ 2)) 0 p := by
    have := ((((hasDerivAt_id p).const_mul (2 * p)).const_add (1 - 2 * p)).sub ((hasDerivAt_id p).pow 2)).const_mul (m / (1 - p) ^ 2)
    refine this.congr_deriv ?_
    simp only [id]; ring
  have hv : camberLine m p p = m := by
    unfold camberLine
    rw [if_neg h0, if_neg (lt_irrefl _)]
    field_simp
    ring
  have l : HasDerivWithinAt (camberLine m p) 0 (Set.Iic p) p := by
    refine h1.hasDerivWithinAt.congr (fun y hy => ?_) ?_
    · rcases (Set.mem_Iic.1 hy).lt_or_eq with hy | rfl
      · unfold camberLine; rw [if_neg h0, if_pos hy]
      · rw [hv]; field_simp; ring
    · rw [hv]; field_simp; ring
  have r : HasDerivWithinAt (camberLine m p) 0 (Set.Ici p) p := by
    refine h2.hasDerivWithinAt.congr (fun y hy => ?_) ?_
    · unfold camberLine; rw [if_neg h0, if_neg (not_lt.2 hy)]
    · unfold camberLine; rw [if_neg h0, if_neg (lt_irrefl _)]
  have := l.union r
  rwa [Set.Iic_union_Ici, hasDerivWithinAt_univ] at this

theorem camber_deriv_none {m p : ℝ} (h : m = 0 ∨ p = 0) (x t : ℝ) : HasDerivAt (camberLine m p) (nacaSlope ⟨m, p, t⟩ x) x := by
  have e1 : camberLine m p = fun _ => 0 := by funext y; unfold camberLine; rw [if_pos h]
  have e2 : nacaSlope ⟨m, p, t⟩ x = 0 := by unfold nacaSlope; rw [if_pos h]
  rw [e1, e2]
  exact hasDerivAt_const _ _

/-- **C76, the part that holds.** Every point of the outline drawn for four digits, up to the maximum camber, and every point of
sections without camber, is where the textbook puts it: the half thickness above or below the camber line, along its normal.
`1/4 - X` and `-Z` are the chordwise coordinate from the nose and the height. -/
theorem C76_fore_partial (h : plotNACA flt l = .ok O) (hd : FourDigits flt l m p t) (j : ℕ)
    (hx : m = 0 ∨ p = 0 ∨ outStation j ≤ p) :
    AlongNormal (camberLine m p) (outStation j) (outSide j * halfThickness t (outStation j)) (1 / 4 - (O j).1) (-(O j).2) := by
  obtain ⟨hp1, hO⟩ := plot_point h hd
  obtain ⟨h1, h2⟩ := hO j
  refine ⟨_, ?_, h1, h2⟩
  by_cases h0 : m = 0 ∨ p = 0
  · exact camber_deriv_none h0 _ _
  · push Not at h0
    rcases (show outStation j ≤ p by tauto).lt_or_eq with hlt | heq
    · exact camber_deriv_fore h0.1 h0.2 hlt _
    · rw [heq]
      have : nacaSlope ⟨m, p, t⟩ p = 0 := by
        unfold nacaSlope
        rw [if_neg (by tauto), if_neg (lt_irrefl _), sub_self, mul_zero]
      rw [this]
      exact camber_deriv_top h0.1 h0.2 (hp1 h0.1)

/-- a section has thickness everywhere but at its nose -/
theorem thickness_shape {x : ℝ} (h0 : 0 < x) (h1 : x ≤ 1) :
    0 < 0.2969 * Real.sqrt x - 0.1260 * x - 0.3516 * x ^ 2 + 0.2843 * x ^ 3 - 0.1015 * x ^ 4 := by
  obtain ⟨s, hs, rfl⟩ : ∃ s, 0 < s ∧ x = s ^ 2 := ⟨Real.sqrt x, Real.sqrt_pos.2 h0, (Real.sq_sqrt h0.le).symm⟩
  have hs1 : s ≤ 1 := by nlinarith
  rw [Real.sqrt_sq hs.le]
  have h3 : s ^ 3 ≤ s ^ 2 := pow_le_pow_of_le_one hs.le hs1 (by norm_num)
  have h4 : s ^ 4 ≤ s ^ 2 := pow_le_pow_of_le_one hs.le hs1 (by norm_num)
  have h2 : s ^ 2 ≤ s := by nlinarith
  have h5 : 0 < s ^ 5 := by positivity
  have h6 : 0 < s ^ 6 := by positivity
  have hq : 0 < 0.2948 + 0.1688 * s + 0.1688 * s ^ 2 - 0.1828 * s ^ 3 - 0.1828 * s ^ 4 + 0.1015 * s ^ 5 + 0.1015 * s ^ 6 := by
    norm_num at *
    nlinarith
  have : 0.2969 * s - 0.1260 * s ^ 2 - 0.3516 * (s ^ 2) ^ 2 + 0.2843 * (s ^ 2) ^ 3 - 0.1015 * (s ^ 2) ^ 4 =
      s * (0.0021 + (1 - s) * (0.2948 + 0.1688 * s + 0.1688 * s ^ 2 - 0.1828 * s ^ 3 - 0.1828 * s ^ 4 + 0.1015 * s ^ 5 + 0.1015 * s ^ 6)) := by
    ring
  rw [this]
  refine mul_pos hs (add_pos_of_pos_of_nonneg (by norm_num) (mul_nonneg (by linarith) hq.le))

theorem halfThickness_ne {t x : ℝ} (ht : t ≠ 0) (h0 : 0 < x) (h1 : x ≤ 1) : halfThickness t x ≠ 0 := by
  unfold halfThickness
  exact mul_ne_zero (div_ne_zero ht (by norm_num)) (ne_of_gt (thickness_shape h0 h1))

theorem halfThickness_pos {t x : ℝ} (ht : 0 < t) (h0 : 0 < x) (h1 : x ≤ 1) : 0 < halfThickness t x := by
  unfold halfThickness
  exact mul_pos (div_pos ht (by norm_num)) (thickness_shape h0 h1)

theorem outStation_le (j : ℕ) : outStation j ≤ 1 := by
  unfold outStation
  have := Real.neg_one_le_cos (Real.pi * (2 * j / 49 - 1))
  linarith

theorem outSide_ne (j : ℕ) : outSide j ≠ 0 := by
  unfold outSide
  split_ifs <;> norm_num

/-- **C76 fails.** Behind the maximum camber no drawn point of a cambered section of any thickness is where the textbook puts it. -/
theorem C76_refuted (h : plotNACA flt l = .ok O) (hd : FourDigits flt l m p t) (j : ℕ) (hm : m ≠ 0) (hp : 0 < p) (ht : t ≠ 0)
    (hx : p < outStation j) :
    ¬ AlongNormal (camberLine m p) (outStation j) (outSide j * halfThickness t (outStation j)) (1 / 4 - (O j).1) (-(O j).2) := by
  rintro ⟨s, h1, h2, h3⟩
  obtain ⟨hp1, hO⟩ := plot_point h hd
  obtain ⟨k1, k2⟩ := hO j
  have hs := h1.unique (camber_deriv_aft hm hp.ne' hx t)
  set v := nacaSlope ⟨m, p, t⟩ (outStation j)
  have hv : v ≠ 0 := by
    simp only [v]
    unfold nacaSlope
    rw [if_neg (by push Not; exact ⟨hm, hp.ne'⟩), if_neg (not_lt.2 hx.le)]
    refine mul_ne_zero (div_ne_zero hm (pow_ne_zero _ (sub_ne_zero.2 (Ne.symm (hp1 hm))))) ?_
    simp only
    linarith
  have hH : outSide j * halfThickness t (outStation j) ≠ 0 :=
    mul_ne_zero (outSide_ne j) (halfThickness_ne ht (hp.trans hx) (outStation_le j))
  rw [k2] at h3
  have e := mul_left_cancel₀ hH (add_left_cancel h3)
  have hpos : ∀ y : ℝ, 0 < 1 + y ^ 2 := fun y => by positivity
  have e' : Real.sqrt (1 + v ^ 2) = Real.sqrt (1 + s ^ 2) := by
    have q1 := (Real.sqrt_pos.2 (hpos v)).ne'
    have q2 := (Real.sqrt_pos.2 (hpos s)).ne'
    field_simp at e
    exact e.symm
  have e2 : v ^ 2 = s ^ 2 := by
    have := congrArg (· ^ 2) e'
    simp only [Real.sq_sqrt (hpos _).le] at this
    linarith
  rw [hs] at e2
  apply hv
  have : v ^ 2 = 0 := by linarith
  exact pow_eq_zero_iff two_ne_zero |>.1 this

/-! ### Examples -/

/-- `float()` on a string of digits -/
def digitsFlt (l : List Char) : Option ℝ := if l ≠ [] ∧ l.all Char.isDigit then some ((l.foldl (fun n c => 10 * n + (c.toNat - 48)) 0 : ℕ) : ℝ) else none

theorem digits_2412 : FourDigits digitsFlt ['2', '4', '1', '2'] 0.02 0.4 0.12 := by
  refine ⟨'2', '4', '1', '2', 2, 4, 12, rfl, ?_, ?_, ?_, by norm_num, by norm_num, by norm_num⟩ <;> simp [digitsFlt]

theorem plot_2412 : ∃ O, plotNACA digitsFlt ['2', '4', '1', '2'] = .ok O := by
  unfold plotNACA parseNaca
  simp [digitsFlt, bind, Except.bind]
  rw [if_neg (by norm_num)]
  exact ⟨_, rfl⟩

/-- NACA 2412: the trailing edge (point 0) is not where it should be -/
example : ∃ O, plotNACA digitsFlt ['2', '4', '1', '2'] = .ok O ∧
    ¬ AlongNormal (camberLine 0.02 0.4) 1 (-halfThickness 0.12 1) (1 / 4 - (O 0).1) (-(O 0).2) := by
  obtain ⟨O, hO⟩ := plot_2412
  have h0 : outStation 0 = 1 := by simp [outStation]
  have := C76_refuted hO digits_2412 0 (by norm_num) (by norm_num) (by norm_num) (by rw [h0]; norm_num)
  rw [h0] at this
  simp only [outSide, show (0 : ℕ) < 25 by norm_num, if_true, neg_one_mul] at this
  exact ⟨O, hO, this⟩

/-- NACA 2412: a point near the nose is where it should be -/
example : ∃ O, plotNACA digitsFlt ['2', '4', '1', '2'] = .ok O ∧
    AlongNormal (camberLine 0.02 0.4) (outStation 25) (halfThickness 0.12 (outStation 25)) (1 / 4 - (O 25).1) (-(O 25).2) := by
  obtain ⟨O, hO⟩ := plot_2412
  have h : outStation 25 ≤ 0.4 := by
    have e : outStation 25 = (1 - Real.cos (Real.pi / 49)) / 2 := by
      unfold outStation; rw [show Real.pi * (2 * (25 : ℕ) / 49 - 1) = Real.pi / 49 by push_cast; ring]
    have h3 := Real.pi_le_four
    have h0 := Real.pi_pos
    have : 1 - (Real.pi / 49) ^ 2 / 2 ≤ Real.cos (Real.pi / 49) := Real.one_sub_sq_div_two_le_cos
    have h5 : Real.pi / 49 < 0.1 := by norm_num; linarith
    have h6 : 0 < Real.pi / 49 := by positivity
    rw [e]
    norm_num at h5 ⊢
    nlinarith
  have := C76_fore_partial hO digits_2412 25 (.inr (.inr h))
  simp only [outSide, show ¬ (25 : ℕ) < 25 by norm_num, if_false, one_mul] at this
  exact ⟨O, hO, this⟩

end Verif
