import Verif.Lemmas.Grid

/-! Helper lemmas: spanwise stations. -/

namespace Verif
open V3

/-- station as a function of the fraction `k/n` -/
noncomputable def stFn (c : Bool) (t : ℝ) : ℝ := if c then 0.5 * (1 - Real.cos (Real.pi * t)) else t

theorem sC1_eq (c : Bool) {n : ℕ} (i : ℕ) : sC1 c n i = stFn c (i / n) := by
  unfold sC1 spacing stFn cosSpacing linSpacing
  cases c
  · simp
  · simp only [if_true]
    congr 3
    push_cast
    ring

theorem sC2_eq (c : Bool) {n : ℕ} (i : ℕ) : sC2 c n i = stFn c ((i + 1) / n) := by
  unfold sC2 spacing stFn cosSpacing linSpacing
  cases c
  · simp
  · simp only [if_true]
    congr 3
    push_cast
    ring

theorem sCp_eq (c : Bool) {n : ℕ} (i : ℕ) : sCp c n i = stFn c ((i + 1 / 2) / n) := by
  unfold sCp spacing stFn cosSpacing linSpacing
  have h : ((i + 1 : ℕ) : ℝ) - 0.5 = i + 1 / 2 := by push_cast; norm_num; ring
  rw [h]
  cases c
  · simp
  · simp only [if_true]
    congr 3
    ring

theorem stFn_zero (c : Bool) : stFn c 0 = 0 := by cases c <;> simp [stFn]
theorem stFn_one (c : Bool) : stFn c 1 = 1 := by cases c <;> simp [stFn]; norm_num

theorem stFn_symm (c : Bool) (t : ℝ) : stFn c (1 - t) = 1 - stFn c t := by
  cases c
  · simp [stFn]
  · simp only [stFn, if_true]
    rw [show Real.pi * (1 - t) = Real.pi - Real.pi * t by ring, Real.cos_pi_sub]
    ring

theorem stFn_lt (c : Bool) {a b : ℝ} (h0 : 0 ≤ a) (hab : a < b) (h1 : b ≤ 1) : stFn c a < stFn c b := by
  cases c
  · simpa [stFn] using hab
  · simp only [stFn, if_true]
    have hp := Real.pi_pos
    have : Real.cos (Real.pi * b) < Real.cos (Real.pi * a) := by
      apply Real.strictAntiOn_cos
      · exact ⟨by positivity, by nlinarith⟩
      · exact ⟨by nlinarith, by nlinarith⟩
      · nlinarith
    linarith

theorem frac_lt {n i : ℕ} (hi : i < n) :
    (0 : ℝ) ≤ i / n ∧ (i : ℝ) / n < (i + 1 / 2) / n ∧ ((i : ℝ) + 1 / 2) / n < (i + 1) / n ∧ ((i : ℝ) + 1) / n ≤ 1 := by
  have hn : (0 : ℝ) < n := by exact_mod_cast (by omega : 0 < n)
  refine ⟨by positivity, ?_, ?_, ?_⟩
  · apply div_lt_div_of_pos_right _ hn; linarith
  · apply div_lt_div_of_pos_right _ hn; linarith
  · rw [div_le_one hn]; exact_mod_cast hi

theorem sC1_lt_sCp (c : Bool) {n i : ℕ} (hi : i < n) : sC1 c n i < sCp c n i := by
  obtain ⟨h0, h1, h2, h3⟩ := frac_lt hi
  rw [sC1_eq, sCp_eq]
  exact stFn_lt c h0 h1 (by linarith)

theorem sCp_lt_sC2 (c : Bool) {n i : ℕ} (hi : i < n) : sCp c n i < sC2 c n i := by
  obtain ⟨h0, h1, h2, h3⟩ := frac_lt hi
  rw [sC2_eq, sCp_eq]
  exact stFn_lt c (by linarith) h2 (by linarith)

theorem sC1_zero (c : Bool) (n : ℕ) : sC1 c n 0 = 0 := by rw [sC1_eq]; simp [stFn_zero]

theorem sC2_last (c : Bool) {n i : ℕ} (hi : i + 1 = n) : sC2 c n i = 1 := by
  rw [sC2_eq]
  have hn : (n : ℝ) ≠ 0 := by exact_mod_cast (by omega : n ≠ 0)
  have : ((i : ℝ) + 1) / n = 1 := by rw [div_eq_one_iff_eq hn]; exact_mod_cast hi
  rw [this, stFn_one]

theorem sC1_succ (c : Bool) (n i : ℕ) : sC1 c n (i + 1) = sC2 c n i := rfl

theorem cast_flip {n i : ℕ} (hi : i < n) : ((n - 1 - i : ℕ) : ℝ) = n - 1 - i := by
  rw [Nat.cast_sub (by omega), Nat.cast_sub (by omega)]; simp

theorem sC1_flip (c : Bool) {n i : ℕ} (hi : i < n) : sC1 c n (n - 1 - i) = 1 - sC2 c n i := by
  rw [sC1_eq, sC2_eq, ← stFn_symm, cast_flip hi]
  have hn : (n : ℝ) ≠ 0 := by exact_mod_cast (by omega : n ≠ 0)
  congr 1; field_simp; ring

theorem sC2_flip (c : Bool) {n i : ℕ} (hi : i < n) : sC2 c n (n - 1 - i) = 1 - sC1 c n i := by
  rw [sC1_eq, sC2_eq, ← stFn_symm, cast_flip hi]
  have hn : (n : ℝ) ≠ 0 := by exact_mod_cast (by omega : n ≠ 0)
  congr 1; field_simp; ring

theorem sCp_flip (c : Bool) {n i : ℕ} (hi : i < n) : sCp c n (n - 1 - i) = 1 - sCp c n i := by
  rw [sCp_eq, sCp_eq, ← stFn_symm, cast_flip hi]
  have hn : (n : ℝ) ≠ 0 := by exact_mod_cast (by omega : n ≠ 0)
  congr 1; field_simp; ring

theorem stFn_le (c : Bool) {a b : ℝ} (h0 : 0 ≤ a) (hab : a ≤ b) (h1 : b ≤ 1) : stFn c a ≤ stFn c b := by
  rcases eq_or_lt_of_le hab with h | h
  · rw [h]
  · exact (stFn_lt c h0 h h1).le

theorem sC1_nonneg (c : Bool) {n i : ℕ} (hi : i < n) : 0 ≤ sC1 c n i := by
  obtain ⟨h0, h1, h2, h3⟩ := frac_lt hi
  rw [sC1_eq, ← stFn_zero c]
  exact stFn_le c le_rfl h0 (by linarith)

theorem sC2_le_one (c : Bool) {n i : ℕ} (hi : i < n) : sC2 c n i ≤ 1 := by
  obtain ⟨h0, h1, h2, h3⟩ := frac_lt hi
  have h := stFn_le c (by linarith) h3 le_rfl
  rwa [stFn_one, ← sC2_eq] at h

theorem sCp_mem (c : Bool) {n i : ℕ} (hi : i < n) : 0 < sCp c n i ∧ sCp c n i < 1 :=
  ⟨lt_of_le_of_lt (sC1_nonneg c hi) (sC1_lt_sCp c hi), lt_of_lt_of_le (sCp_lt_sC2 c hi) (sC2_le_one c hi)⟩

theorem sC1_lt_sC2 (c : Bool) {n i : ℕ} (hi : i < n) : sC1 c n i < sC2 c n i :=
  (sC1_lt_sCp c hi).trans (sCp_lt_sC2 c hi)

/-- a point of the segment is on the straight line between the tips -/
theorem segPoint_eq {l r : V3} (h : nrm (r - l) ≠ 0) (s : ℝ) : segPoint l r s = l + s • (r - l) := by
  unfold segPoint unitS
  ext <;> simp <;> field_simp <;> ring

/-- telescoping sum over the stations of a segment -/
theorem sum_telescope (c : Bool) {n : ℕ} (hn : 0 < n) (F : ℝ → ℝ) :
    ((List.range n).map fun i => F (sC2 c n i) - F (sC1 c n i)).sum = F 1 - F 0 := by
  have key : ∀ m ≤ n, ((List.range m).map fun i => F (sC2 c n i) - F (sC1 c n i)).sum = F (sC1 c n m) - F 0 := by
    intro m
    induction m with
    | zero => intro _; simp [sC1_zero]
    | succ m ih =>
      intro hm
      rw [List.range_succ, List.map_append, List.sum_append, ih (by omega)]
      simp [sC1_succ]
  rw [key n le_rfl]
  obtain ⟨m, rfl⟩ : ∃ m, n = m + 1 := ⟨n - 1, by omega⟩
  rw [sC1_succ, sC2_last c rfl]

end Verif
