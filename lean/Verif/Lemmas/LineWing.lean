import Verif.Model.LL
import Verif.Lemmas.LLKernel
import Verif.Lemmas.MMatrix

/-!
# Lemmas: the lifting line of sections that lie side by side on one straight line
-/

set_option linter.unusedSectionVars false

namespace Verif
open V3

variable {ι : Type*} [Fintype ι] [DecidableEq ι]

/-- The sections lie side by side on a line parallel to the y axis, section `i` from `a i` to `b i` with its control point at `y i`,
and the wind `u` meets each of them from its front. -/
structure OnLine (S : ι → Section) (u : V3) (x z : ℝ) (y a b : ι → ℝ) : Prop where
  rcp : ∀ i, (S i).rcp = ⟨x, y i, z⟩
  r1 : ∀ i, (S i).r1 = ⟨x, a i, z⟩
  r2 : ∀ i, (S i).r2 = ⟨x, b i, z⟩
  ay : ∀ i, a i < y i
  yb : ∀ i, y i < b i
  apart : ∀ i j, i ≠ j → b i ≤ a j ∨ b j ≤ a i
  area : ∀ i, 0 < (S i).area
  cla : ∀ i, 0 ≤ (S i).cla
  unit : nrm u = 1
  tilt : -1 < u.y ∧ u.y < 1
  axial : ∀ i, (S i).ua.y = 0
  frame : ∀ i, dot (S i).un (cross u ey) = dot u (S i).ua
  front : ∀ i, 0 < dot u (S i).ua

theorem nrm_along_y (t : ℝ) : nrm (⟨0, t, 0⟩ : V3) = |t| := by
  unfold nrm dot
  simp only [mul_zero, zero_add, add_zero]
  exact Real.sqrt_mul_self_eq_abs t

theorem trailTerm_y (u : V3) (t : ℝ) : trailTerm u ⟨0, t, 0⟩ = lineInf u.y t • cross u ey := by
  unfold trailTerm lineInf
  rw [nrm_along_y]
  have e : dot u ⟨0, t, 0⟩ = u.y * t := by simp [dot]
  rw [e]
  generalize |t| * (|t| - u.y * t) = k
  ext <;> simp [ey] <;> ring

namespace OnLine

variable {S : ι → Section} {u : V3} {x z : ℝ} {y a b : ι → ℝ}

theorem sub1 (h : OnLine S u x z y a b) (i j : ι) : (S i).rcp - (S j).r1 = ⟨0, y i - a j, 0⟩ := by
  rw [h.rcp, h.r1]; ext <;> simp

theorem sub2 (h : OnLine S u x z y a b) (i j : ι) : (S i).rcp - (S j).r2 = ⟨0, y i - b j, 0⟩ := by
  rw [h.rcp, h.r2]; ext <;> simp

theorem vji (h : OnLine S u x z y a b) (i j : ι) :
    Verif.vji S u i j = (-(1 / (4 * Real.pi)) * (lineInf u.y (y i - a j) - lineInf u.y (y i - b j))) • cross u ey := by
  unfold Verif.vji
  simp only [h.sub1, h.sub2, trailTerm_y]
  have hb : (if i = j then (0 : V3) else boundTerm ⟨0, y i - a j, 0⟩ ⟨0, y i - b j, 0⟩) = 0 := by
    split
    · rfl
    · unfold boundTerm
      have : cross (⟨0, y i - a j, 0⟩ : V3) ⟨0, y i - b j, 0⟩ = 0 := by ext <;> simp
      rw [this, smul_zero, smul_zero]
  rw [hb, add_zero, ← sub_smul, smul_smul]
  congr 1
  ring

theorem same_side (h : OnLine S u x z y a b) {i j : ι} (hij : i ≠ j) : 0 < (y i - a j) * (y i - b j) := by
  have h1 := h.ay i
  have h2 := h.yb i
  have h3 := (h.ay j).trans (h.yb j)
  rcases h.apart i j hij with k | k
  · exact mul_pos_of_neg_of_neg (by linarith) (by linarith)
  · exact mul_pos (by linarith) (by linarith)

theorem ne (h : OnLine S u x z y a b) (i j : ι) : y i - a j ≠ 0 ∧ y i - b j ≠ 0 := by
  by_cases hij : i = j
  · subst hij
    exact ⟨(sub_pos.2 (h.ay i)).ne', (sub_neg.2 (h.yb i)).ne⟩
  · have := h.same_side hij
    exact ⟨left_ne_zero_of_mul this.ne', right_ne_zero_of_mul this.ne'⟩

theorem trail_ne {κ t : ℝ} (h0 : -1 < κ) (h1 : κ < 1) (ht : t ≠ 0) : |t| * (|t| - κ * t) ≠ 0 := by
  have hp := abs_pos.2 ht
  refine mul_ne_zero hp.ne' (ne_of_gt ?_)
  rcases lt_or_gt_of_ne ht with h | h
  · rw [abs_of_neg h]; nlinarith
  · rw [abs_of_pos h]; nlinarith

theorem influence (h : OnLine S u x z y a b) : InfluenceDefined S u := by
  have e : ∀ t : ℝ, dot u ⟨0, t, 0⟩ = u.y * t := fun t => by simp [dot]
  refine ⟨fun i j => ?_, fun i j => ?_, fun i j hij => ?_⟩
  · rw [h.sub1, nrm_along_y, e]; exact trail_ne h.tilt.1 h.tilt.2 (h.ne i j).1
  · rw [h.sub2, nrm_along_y, e]; exact trail_ne h.tilt.1 h.tilt.2 (h.ne i j).2
  · rw [h.sub1, h.sub2, nrm_along_y, nrm_along_y]
    have hs := h.same_side hij
    have h1 : 0 < |y i - a j| * |y i - b j| := by rw [← abs_mul]; exact abs_pos.2 hs.ne'
    have h2 : dot (⟨0, y i - a j, 0⟩ : V3) ⟨0, y i - b j, 0⟩ = (y i - a j) * (y i - b j) := by simp [dot]
    rw [h2]
    positivity

/-- the influence matrix of the line -/
theorem lineM (h : OnLine S u x z y a b) :
    RowM (fun i j => lineInf u.y (y i - a j) - lineInf u.y (y i - b j) : Matrix ι ι ℝ) :=
  line_rowM h.tilt.1 h.tilt.2 y a b h.ay h.yb h.apart

theorem aMat_eq (h : OnLine S u x z y a b) {F : Flow ι} (hu : F.u = u) (i j : ι) :
    aMat S F i j = nrm (F.v i) * (S i).area * (S i).cla * (1 / (4 * Real.pi)) * dot u (S i).ua *
        (lineInf u.y (y i - a j) - lineInf u.y (y i - b j)) +
      (if i = j then 2 * nrm (cross (F.v i) (dl (S i))) else 0) := by
  unfold aMat
  rw [hu, h.vji, dot_smul, h.frame]
  congr 1
  ring

/-- air that meets a section from its front or its back crosses its span -/
theorem across (h : OnLine S u x z y a b) {i : ι} {v : V3} (hv : dot v (S i).ua ≠ 0) : 0 < nrm (cross v (dl (S i))) := by
  refine nrm_pos fun h0 => hv ?_
  have hd : 0 < b i - a i := by have := h.ay i; have := h.yb i; linarith
  have e : dl (S i) = ⟨0, b i - a i, 0⟩ := by
    unfold dl
    rw [h.r1, h.r2]
    ext <;> simp
  rw [e] at h0
  have h1 := congrArg V3.x h0
  have h2 := congrArg V3.z h0
  simp [hd.ne'] at h1 h2
  simp [dot, h.axial, h1, h2]

/-- the matrix of the lifting-line system is monotone, whatever the speeds at the sections -/
theorem rowM (h : OnLine S u x z y a b) {F : Flow ι} (hu : F.u = u) (hv : ∀ i, dot (F.v i) (S i).ua ≠ 0) :
    RowM (aMat S F) ∧ ∀ i, 2 * nrm (cross (F.v i) (dl (S i))) ≤ ∑ j, aMat S F i j := by
  have hk : ∀ i, 0 ≤ nrm (F.v i) * (S i).area * (S i).cla * (1 / (4 * Real.pi)) * dot u (S i).ua := fun i => by
    have h1 := nrm_nonneg (F.v i)
    have h2 := h.area i
    have h3 := h.cla i
    have h4 := h.front i
    have := Real.pi_pos
    positivity
  have hr : ∀ i, ∑ j, aMat S F i j = nrm (F.v i) * (S i).area * (S i).cla * (1 / (4 * Real.pi)) * dot u (S i).ua *
      ∑ j, (lineInf u.y (y i - a j) - lineInf u.y (y i - b j)) + 2 * nrm (cross (F.v i) (dl (S i))) := fun i => by
    simp only [h.aMat_eq hu]
    rw [Finset.sum_add_distrib, ← Finset.mul_sum, Finset.sum_ite_eq, if_pos (Finset.mem_univ i)]
  have hp : ∀ i, 0 ≤ nrm (F.v i) * (S i).area * (S i).cla * (1 / (4 * Real.pi)) * dot u (S i).ua *
      ∑ j, (lineInf u.y (y i - a j) - lineInf u.y (y i - b j)) := fun i => mul_nonneg (hk i) (h.lineM.row i).le
  refine ⟨⟨fun i j hij => ?_, fun i => ?_⟩, fun i => ?_⟩
  · rw [h.aMat_eq hu, if_neg hij, add_zero]
    exact mul_nonpos_of_nonneg_of_nonpos (hk i) (h.lineM.off i j hij)
  · rw [hr]; have := h.across (hv i); linarith [hp i]
  · rw [hr]; linarith [hp i]

theorem cross_ne (h : OnLine S u x z y a b) : 0 < nrm (cross u ey) ∧ nrm (cross u ey) * nrm (cross u ey) = 1 - u.y * u.y := by
  have h1 : u.x * u.x + u.y * u.y + u.z * u.z = 1 := by
    have := nrm_mul_self u
    rw [h.unit] at this
    simp only [dot] at this
    linarith
  have h2 : nrm (cross u ey) * nrm (cross u ey) = 1 - u.y * u.y := by
    rw [nrm_mul_self]
    simp [dot, ey]
    linarith
  refine ⟨lt_of_le_of_ne (nrm_nonneg _) fun h0 => ?_, h2⟩
  rw [← h0] at h2
  nlinarith [h.tilt.1, h.tilt.2]

theorem wind (h : OnLine S u x z y a b) : WindAxesDefined u := by
  have h2 := h.cross_ne.1.ne'
  refine ⟨h2, fun h0 => ?_⟩
  have hl : nrm (liftAxis u) = 1 := nrm_unit h2
  have hd : dot (liftAxis u) u = 0 := by
    unfold liftAxis Verif.unit
    rw [smul_dot, dot_comm, dot_cross_self, mul_zero]
  have := lagrange (liftAxis u) u
  rw [← nrm_mul_self, ← nrm_mul_self, ← nrm_mul_self, h0, hd, hl, h.unit] at this
  norm_num at this

/-- downwash at the control point of section `i` -/
noncomputable def down (u : V3) (y a b γ : ι → ℝ) (i : ι) : ℝ :=
  1 / (4 * Real.pi) * ∑ j, γ j * (lineInf u.y (y i - a j) - lineInf u.y (y i - b j))

theorem vInd (h : OnLine S u x z y a b) {F : Flow ι} (hu : F.u = u) (γ : ι → ℝ) (i : ι) :
    Verif.vInd S F γ i = F.v i - down u y a b γ i • cross u ey := by
  unfold Verif.vInd down
  rw [hu, sub_eq_add_neg, ← neg_smul, Finset.mul_sum, ← Finset.sum_neg_distrib, Finset.sum_smul]
  congr 1
  refine Finset.sum_congr rfl fun j _ => ?_
  rw [h.vji, smul_smul]
  congr 1
  ring

theorem solve (h : OnLine S u x z y a b) {F : Flow ι} (hu : F.u = u) {V : ℝ} (hV : 0 < V) (hv : ∀ i, F.v i = V • u) (cg : V3)
    (C : Ctrl ι) : ∃ γ, solveLinear cg S F C = .ok (solOf cg S F C γ) ∧ (aMat S F).mulVec γ = bVec S F C := by
  have hv0 : ∀ i, dot (F.v i) (S i).ua ≠ 0 := fun i => by
    rw [hv, smul_dot]
    exact (mul_pos hV (h.front i)).ne'
  have hdet := (h.rowM hu hv0).1.det_ne_zero
  refine ⟨(aMat S F)⁻¹.mulVec (bVec S F C), ?_, ?_⟩
  · have hrhs : RhsDefined S F := fun i => by
      rw [hv, smul_dot]
      exact (mul_pos hV (h.front i)).ne'
    have hpost : PostDefined F (Verif.vInd S F ((aMat S F)⁻¹.mulVec (bVec S F C))) := by
      refine ⟨fun i h0 => ?_, hu ▸ h.wind⟩
      rw [nrm_eq_zero, h.vInd hu, hv] at h0
      have := congrArg (dot u) h0
      rw [dot_sub, dot_smul, dot_smul, dot_cross_self, ← nrm_mul_self, h.unit] at this
      simp [dot] at this
      exact hV.ne' this
    unfold solveLinear
    rw [if_neg (not_not.2 ⟨hu ▸ h.influence, hrhs⟩), if_neg hdet]
    simp only
    rw [if_neg (not_not.2 hpost)]
  · rw [Matrix.mulVec_mulVec, Matrix.mul_nonsing_inv _ (isUnit_iff_ne_zero.2 hdet), Matrix.one_mulVec]

/-- force on a section: lift proportional to the circulation, drag to the product of circulation and downwash -/
theorem force (h : OnLine S u x z y a b) {F : Flow ι} (hu : F.u = u) {V : ℝ} (hv : ∀ i, F.v i = V • u) (γ : ι → ℝ) (i : ι) :
    dot (secForce S F γ (Verif.vInd S F γ) i) (liftAxis u) = F.rho i * V * nrm (cross u ey) * (γ i * (b i - a i)) ∧
    dot (secForce S F γ (Verif.vInd S F γ) i) u =
      F.rho i * nrm (cross u ey) ^ 2 * (γ i * (b i - a i) * down u y a b γ i) := by
  obtain ⟨hp, hsq⟩ := h.cross_ne
  have hdl : dl (S i) = (b i - a i) • ey := by
    unfold dl; rw [h.r1, h.r2]; ext <;> simp [ey]
  have h1 : u.x * u.x + u.y * u.y + u.z * u.z = 1 := by
    have := nrm_mul_self u
    rw [h.unit] at this
    simp only [dot] at this
    linarith
  unfold secForce
  rw [h.vInd hu, hv, hdl]
  generalize down u y a b γ i = w
  have e1 : dot ((F.rho i * γ i) • cross (V • u - w • cross u ey) ((b i - a i) • ey)) (cross u ey) =
      F.rho i * V * (1 - u.y * u.y) * (γ i * (b i - a i)) := by
    rw [show (1 - u.y * u.y) = u.x * u.x + u.z * u.z by linarith]
    simp [dot, ey]; ring
  constructor
  · rw [liftAxis, Verif.unit, dot_smul, e1, ← hsq]
    field_simp
  · rw [sq, hsq, show (1 - u.y * u.y) = u.x * u.x + u.z * u.z by linarith]
    simp [dot, ey]; ring

theorem loads (h : OnLine S u x z y a b) {F : Flow ι} (hu : F.u = u) {V : ℝ} (hv : ∀ i, F.v i = V • u) (cg : V3) (C : Ctrl ι)
    (γ : ι → ℝ) :
    (solOf cg S F C γ).inviscid.FL = ∑ i, F.rho i * V * nrm (cross u ey) * (γ i * (b i - a i)) ∧
    (solOf cg S F C γ).inviscid.FD = ∑ i, F.rho i * nrm (cross u ey) ^ 2 * (γ i * (b i - a i) * down u y a b γ i) := by
  simp only [solOf, mkLoads, hu]
  rw [rotateAero_eq h.unit h.wind]
  simp only [sum_dot]
  exact ⟨Finset.sum_congr rfl fun i _ => (h.force hu hv γ i).1, Finset.sum_congr rfl fun i _ => (h.force hu hv γ i).2⟩

end OnLine

end Verif
