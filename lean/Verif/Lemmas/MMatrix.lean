import Mathlib.LinearAlgebra.Matrix.Gershgorin
import Mathlib.LinearAlgebra.Matrix.NonsingularInverse

/-!
# Lemmas: disjoint intervals on a line, and matrices with non-positive entries off the diagonal and positive row sums
-/

namespace Verif

variable {ι : Type*}

/-- Increments of a monotone function over disjoint intervals inside `[lo, hi]` add up to at most its increment over the whole. -/
theorem sum_increments_le (φ : ℝ → ℝ) (a b : ι → ℝ) (s : Finset ι) :
    ∀ (lo hi : ℝ), lo ≤ hi → (∀ i ∈ s, lo ≤ a i ∧ a i < b i ∧ b i ≤ hi) →
      (∀ i ∈ s, ∀ j ∈ s, i ≠ j → b i ≤ a j ∨ b j ≤ a i) →
      (∀ x y, lo ≤ x → x ≤ y → y ≤ hi → φ x ≤ φ y) →
      ∑ i ∈ s, (φ (b i) - φ (a i)) ≤ φ hi - φ lo := by
  classical
  induction s using Finset.strongInduction with
  | H s ih =>
    intro lo hi hle hin hdis hmono
    rcases s.eq_empty_or_nonempty with rfl | hne
    · have := hmono lo hi le_rfl hle le_rfl
      simp; linarith
    · obtain ⟨m, hm, hmax⟩ := s.exists_max_image b hne
      rw [← Finset.add_sum_erase s _ hm]
      have h1 := hin m hm
      have key := ih (s.erase m) (Finset.erase_ssubset hm) lo (a m) h1.1
        (fun i hi' => by
          obtain ⟨hne', his⟩ := Finset.mem_erase.1 hi'
          have h2 := hin i his
          refine ⟨h2.1, h2.2.1, ?_⟩
          rcases hdis i his m hm hne' with h | h
          · exact h
          · have := hmax i his; linarith [h2.2.1])
        (fun i hi' j hj' => hdis i (Finset.mem_of_mem_erase hi') j (Finset.mem_of_mem_erase hj'))
        (fun x y hx hxy hy => hmono x y hx hxy (by linarith [h1.2.1, h1.2.2]))
      have h3 := hmono (b m) hi (by linarith [h1.1, h1.2.1]) h1.2.2 le_rfl
      linarith

variable [Fintype ι] [DecidableEq ι]

/-- no positive entry off the diagonal, positive row sums -/
structure RowM (A : Matrix ι ι ℝ) : Prop where
  off : ∀ i j, i ≠ j → A i j ≤ 0
  row : ∀ i, 0 < ∑ j, A i j

theorem RowM.det_ne_zero {A : Matrix ι ι ℝ} (h : RowM A) : A.det ≠ 0 := by
  apply det_ne_zero_of_sum_row_lt_diag
  intro k
  have h1 := h.row k
  rw [← Finset.add_sum_erase _ _ (Finset.mem_univ k)] at h1
  have h2 : ∑ j ∈ Finset.univ.erase k, ‖A k j‖ = -∑ j ∈ Finset.univ.erase k, A k j := by
    rw [← Finset.sum_neg_distrib]
    refine Finset.sum_congr rfl fun j hj => ?_
    rw [Real.norm_eq_abs, abs_of_nonpos (h.off k j (Finset.ne_of_mem_erase hj).symm)]
  have h3 : ∑ j ∈ Finset.univ.erase k, A k j ≤ 0 :=
    Finset.sum_nonpos fun j hj => h.off k j (Finset.ne_of_mem_erase hj).symm
  rw [h2, Real.norm_eq_abs]
  have := le_abs_self (A k k)
  linarith

/-- the system is monotone: a non-negative right-hand side has a non-negative solution -/
theorem RowM.nonneg {A : Matrix ι ι ℝ} (h : RowM A) {x : ι → ℝ} (hx : ∀ i, 0 ≤ A.mulVec x i) (i : ι) : 0 ≤ x i := by
  obtain ⟨m, -, hmin⟩ := Finset.univ.exists_min_image x ⟨i, Finset.mem_univ i⟩
  by_contra hneg
  have hm : x m < 0 := lt_of_le_of_lt (hmin i (Finset.mem_univ i)) (not_le.1 hneg)
  have h1 : A.mulVec x m ≤ (∑ j, A m j) * x m := by
    rw [Finset.sum_mul]
    refine Finset.sum_le_sum fun j _ => ?_
    by_cases hj : m = j
    · subst hj; exact le_rfl
    · exact mul_le_mul_of_nonpos_left (hmin j (Finset.mem_univ j)) (h.off m j hj)
  have h2 := mul_neg_of_pos_of_neg (h.row m) hm
  linarith [hx m]

/-- comparison of two right-hand sides -/
theorem RowM.mono {A : Matrix ι ι ℝ} (h : RowM A) {x y : ι → ℝ} (hxy : ∀ i, A.mulVec x i ≤ A.mulVec y i) (i : ι) :
    x i ≤ y i := by
  have := h.nonneg (x := y - x) (fun i => by
    rw [Matrix.mulVec_sub, Pi.sub_apply]; linarith [hxy i]) i
  simp at this
  exact this

/-- upper bound: with row sums at least `D` and a right-hand side of at most `D * M`, no entry exceeds `M` -/
theorem RowM.le_of {A : Matrix ι ι ℝ} (h : RowM A) {x : ι → ℝ} {D : ι → ℝ} {M : ℝ} (hM : 0 ≤ M)
    (hD : ∀ i, D i ≤ ∑ j, A i j) (hb : ∀ i, A.mulVec x i ≤ D i * M) (i : ι) : x i ≤ M := by
  refine h.mono (y := fun _ => M) (fun i => ?_) i
  refine (hb i).trans ?_
  have : A.mulVec (fun _ => M) i = (∑ j, A i j) * M := by
    simp [Matrix.mulVec, dotProduct, Finset.sum_mul]
  rw [this]
  exact mul_le_mul_of_nonneg_right (hD i) hM

/-! ### Straight vortex lines -/

/-- influence of a trailing vortex at distance `t` along the line; `κ` is the component of the wake direction along the line -/
noncomputable def lineInf (κ t : ℝ) : ℝ := t / (|t| * (|t| - κ * t))

theorem lineInf_pos_eq {κ t : ℝ} (ht : 0 < t) : lineInf κ t = 1 / (t * (1 - κ)) := by
  unfold lineInf
  rw [abs_of_pos ht, show t - κ * t = t * (1 - κ) by ring]
  by_cases hk : 1 - κ = 0
  · simp [hk]
  · field_simp

theorem lineInf_neg_eq {κ t : ℝ} (ht : t < 0) : lineInf κ t = 1 / (t * (1 + κ)) := by
  unfold lineInf
  rw [abs_of_neg ht, show -t - κ * t = -(t * (1 + κ)) by ring]
  by_cases hk : 1 + κ = 0
  · simp [hk]
  · have := ht.ne
    field_simp

/-- `-lineInf` falls as the vortex moves away to the left of the point -/
theorem lineInf_left {κ y s t : ℝ} (hκ : κ < 1) (hst : s ≤ t) (ht : t < y) : lineInf κ (y - s) ≤ lineInf κ (y - t) := by
  rw [lineInf_pos_eq (by linarith), lineInf_pos_eq (by linarith)]
  have h1 : 0 < 1 - κ := by linarith
  have h2 : 0 < y - t := by linarith
  apply one_div_le_one_div_of_le (by positivity)
  exact mul_le_mul_of_nonneg_right (by linarith) h1.le

/-- the same to the right of the point -/
theorem lineInf_right {κ y s t : ℝ} (hκ : -1 < κ) (hs : y < s) (hst : s ≤ t) : lineInf κ (y - s) ≤ lineInf κ (y - t) := by
  rw [lineInf_neg_eq (by linarith), lineInf_neg_eq (by linarith)]
  have h1 : 0 < 1 + κ := by linarith
  have h2 : 0 < s - y := by linarith
  rw [show (y - s) * (1 + κ) = -((s - y) * (1 + κ)) by ring, show (y - t) * (1 + κ) = -((t - y) * (1 + κ)) by ring,
    one_div_neg_eq_neg_one_div, one_div_neg_eq_neg_one_div, neg_le_neg_iff]
  apply one_div_le_one_div_of_le (by positivity)
  exact mul_le_mul_of_nonneg_right (by linarith) h1.le

theorem lineInf_pos {κ t : ℝ} (hκ : κ < 1) (ht : 0 < t) : 0 < lineInf κ t := by
  rw [lineInf_pos_eq ht]
  have h1 : 0 < 1 - κ := by linarith
  positivity

theorem lineInf_neg {κ t : ℝ} (hκ : -1 < κ) (ht : t < 0) : lineInf κ t < 0 := by
  rw [lineInf_neg_eq ht]
  have h1 : 0 < 1 + κ := by linarith
  exact one_div_neg.2 (mul_neg_of_neg_of_pos ht h1)

/-- Horseshoe vortices side by side on a line, their influence on each other's control points: negative on the others, and
together still positive. -/
theorem line_rowM {κ : ℝ} (h0 : -1 < κ) (h1 : κ < 1) (y a b : ι → ℝ) (ha : ∀ i, a i < y i) (hb : ∀ i, y i < b i)
    (hd : ∀ i j, i ≠ j → b i ≤ a j ∨ b j ≤ a i) :
    RowM (fun i j => lineInf κ (y i - a j) - lineInf κ (y i - b j) : Matrix ι ι ℝ) := by
  have hab : ∀ i, a i < b i := fun i => (ha i).trans (hb i)
  constructor
  · intro i j hij
    rcases hd i j hij with h | h
    · have := lineInf_right (y := y i) h0 (by linarith [hb i]) (hab j).le; linarith
    · have := lineInf_left (y := y i) h1 (hab j).le (by linarith [ha i]); linarith
  · intro i
    obtain ⟨mh, -, hmax⟩ := Finset.univ.exists_max_image b ⟨i, Finset.mem_univ i⟩
    obtain ⟨ml, -, hmin⟩ := Finset.univ.exists_min_image a ⟨i, Finset.mem_univ i⟩
    have hmax := fun j => hmax j (Finset.mem_univ j)
    have hmin := fun j => hmin j (Finset.mem_univ j)
    rw [← Finset.add_sum_erase _ _ (Finset.mem_univ i),
      ← Finset.sum_filter_add_sum_filter_not (Finset.univ.erase i) (fun j => b i ≤ a j)]
    have hR := sum_increments_le (fun t => lineInf κ (y i - t)) a b
      ((Finset.univ.erase i).filter fun j => b i ≤ a j) (b i) (b mh) (hmax i)
      (fun j hj => ⟨(Finset.mem_filter.1 hj).2, hab j, hmax j⟩) (fun j _ k _ => hd j k)
      (fun s t hs hst _ => lineInf_right h0 (by linarith [hb i]) hst)
    have hL := sum_increments_le (fun t => lineInf κ (y i - t)) a b
      ((Finset.univ.erase i).filter fun j => ¬ b i ≤ a j) (a ml) (a i) (hmin i)
      (fun j hj => by
        obtain ⟨h2, h3⟩ := Finset.mem_filter.1 hj
        exact ⟨hmin j, hab j, (hd i j (Finset.ne_of_mem_erase h2).symm).resolve_left h3⟩) (fun j _ k _ => hd j k)
      (fun s t _ hst ht => lineInf_left h1 hst (by linarith [ha i]))
    have e : ∀ s : Finset ι, ∑ j ∈ s, (lineInf κ (y i - a j) - lineInf κ (y i - b j)) =
        -∑ j ∈ s, (lineInf κ (y i - b j) - lineInf κ (y i - a j)) := fun s => by
      rw [← Finset.sum_neg_distrib]; exact Finset.sum_congr rfl fun j _ => by ring
    rw [e, e]
    have p1 := lineInf_pos (t := y i - a ml) h1 (by linarith [hmin i, ha i])
    have p2 := lineInf_neg (t := y i - b mh) h0 (by linarith [hmax i, hb i])
    linarith

end Verif
