import Verif.Spec.Similarity

/-! Helper lemmas: how every intermediate quantity of the lifting-line kernel transforms under a similarity. -/

set_option linter.unusedSectionVars false

namespace Verif
open V3

namespace Sim
variable (T : Sim)

theorem sgn_sq : T.sgn * T.sgn = 1 := by unfold Iso.sgn; split <;> norm_num
theorem sgn_ne : T.sgn ≠ 0 := by unfold Iso.sgn; split <;> norm_num

theorem cross_Q' (a b : V3) : cross (T.Q a) (T.Q b) = T.sgn • T.Q (cross a b) := T.cross_Q a b

theorem nrm_Q (a : V3) : nrm (T.Q a) = nrm a := by rw [nrm, nrm, T.dot_Q]

theorem pt_sub (a b : V3) : T.pt a - T.pt b = T.len • T.Q (a - b) := by
  simp only [pt, map_sub, smul_sub]; abel

theorem nrm_lenQ (a : V3) : nrm (T.len • T.Q a) = T.len * nrm a := by
  rw [nrm_smul_pos T.len_pos, T.nrm_Q]

theorem trailTerm_Q (u r : V3) : trailTerm (T.Q u) (T.len • T.Q r) = (T.sgn / T.len) • T.Q (trailTerm u r) := by
  have h := T.len_pos.ne'
  rw [trailTerm, trailTerm, T.nrm_lenQ, dot_smul, T.dot_Q, cross_smul, T.cross_Q', map_smul]
  simp only [smul_smul]
  congr 1
  rw [show T.len * nrm r * (T.len * nrm r - T.len * dot u r)
    = T.len * T.len * (nrm r * (nrm r - dot u r)) by ring]
  generalize nrm r * (nrm r - dot u r) = X
  simp only [one_div, mul_inv]
  field_simp

theorem boundTerm_Q (r1 r2 : V3) :
    boundTerm (T.len • T.Q r1) (T.len • T.Q r2) = (T.sgn / T.len) • T.Q (boundTerm r1 r2) := by
  have h := T.len_pos.ne'
  rw [boundTerm, boundTerm, T.nrm_lenQ, T.nrm_lenQ, dot_smul, smul_dot, T.dot_Q, cross_smul, smul_cross,
    T.cross_Q', map_smul, map_smul]
  simp only [smul_smul]
  congr 1
  rw [show T.len * nrm r1 * (T.len * nrm r2) * (T.len * nrm r1 * (T.len * nrm r2) + T.len * (T.len * dot r1 r2))
    = T.len ^ 4 * (nrm r1 * nrm r2 * (nrm r1 * nrm r2 + dot r1 r2)) by ring]
  generalize nrm r1 * nrm r2 * (nrm r1 * nrm r2 + dot r1 r2) = X
  simp only [one_div, mul_inv]
  field_simp

end Sim

theorem boundTerm_swap (r1 r2 : V3) : boundTerm r2 r1 = - boundTerm r1 r2 := by
  rw [boundTerm, boundTerm, cross_anticomm r2 r1, dot_comm r2 r1, mul_comm (nrm r2), add_comm (nrm r2)]
  simp

section
variable {ι ι' : Type*} [Fintype ι] [DecidableEq ι] [Fintype ι'] [DecidableEq ι']
variable (T : Sim) (σ : ι ≃ ι') {S : ι → Section} {S' : ι' → Section}

theorem vji_image (hS : ∀ i, SecImage T (S i) (S' (σ i))) (u : V3) (i j : ι) :
    vji S' (T.Q u) (σ i) (σ j) = (1 / T.len) • T.Q (vji S u i j) := by
  have hl := T.len_pos.ne'
  simp only [vji, (hS i).rcp, (hS j).r1, (hS j).r2, T.pt_sub, T.trailTerm_Q, T.boundTerm_Q,
    EmbeddingLike.apply_eq_iff_eq]
  cases hf : T.flip
  · have hs : T.sgn = 1 := by simp [Iso.sgn, hf]
    simp only [hs, Bool.false_eq_true, if_false, map_smul, map_add, map_sub]
    split
    · simp only [map_zero]; module
    · module
  · have hs : T.sgn = -1 := by simp [Iso.sgn, hf]
    simp only [hs, if_true, map_smul, map_add, map_sub]
    rw [boundTerm_swap ((S i).rcp - (S j).r1)]
    simp only [map_neg]
    split
    · simp only [map_zero]; module
    · module

theorem forall_equiv {p : ι' → Prop} : (∀ i', p i') ↔ ∀ i, p (σ i) :=
  ⟨fun h i => h _, fun h i' => by simpa using h (σ.symm i')⟩

theorem influenceDefined_image (hS : ∀ i, SecImage T (S i) (S' (σ i))) (u : V3) :
    InfluenceDefined S' (T.Q u) ↔ InfluenceDefined S u := by
  have hl := T.len_pos.ne'
  have key : ∀ r : V3, nrm (T.len • T.Q r) * (nrm (T.len • T.Q r) - dot (T.Q u) (T.len • T.Q r)) ≠ 0 ↔
      nrm r * (nrm r - dot u r) ≠ 0 := by
    intro r
    rw [T.nrm_lenQ, dot_smul, T.dot_Q, show T.len * nrm r * (T.len * nrm r - T.len * dot u r)
      = T.len * T.len * (nrm r * (nrm r - dot u r)) by ring]
    simp [hl]
  have key2 : ∀ r1 r2 : V3, nrm (T.len • T.Q r1) * nrm (T.len • T.Q r2) *
      (nrm (T.len • T.Q r1) * nrm (T.len • T.Q r2) + dot (T.len • T.Q r1) (T.len • T.Q r2)) ≠ 0 ↔
      nrm r1 * nrm r2 * (nrm r1 * nrm r2 + dot r1 r2) ≠ 0 := by
    intro r1 r2
    rw [T.nrm_lenQ, T.nrm_lenQ, dot_smul, smul_dot, T.dot_Q,
      show T.len * nrm r1 * (T.len * nrm r2) * (T.len * nrm r1 * (T.len * nrm r2) + T.len * (T.len * dot r1 r2))
      = T.len ^ 4 * (nrm r1 * nrm r2 * (nrm r1 * nrm r2 + dot r1 r2)) by ring]
    simp [hl]
  unfold InfluenceDefined
  simp only [forall_equiv σ, (hS _).rcp, (hS _).r1, (hS _).r2, T.pt_sub, key, key2, ne_eq,
    EmbeddingLike.apply_eq_iff_eq]
  cases hf : T.flip
  · simp
  · simp only [if_true]
    constructor
    · rintro ⟨h1, h2, h3⟩
      refine ⟨h2, h1, fun i j hij => ?_⟩
      have := h3 i j hij
      rwa [mul_comm (nrm ((S i).rcp - (S j).r2)), dot_comm ((S i).rcp - (S j).r2)] at this
    · rintro ⟨h1, h2, h3⟩
      refine ⟨h2, h1, fun i j hij => ?_⟩
      have := h3 i j hij
      rwa [mul_comm (nrm ((S i).rcp - (S j).r1)), dot_comm ((S i).rcp - (S j).r1)] at this

variable {F : Flow ι} {F' : Flow ι'} {C : Ctrl ι} {C' : Ctrl ι'}

theorem dl_image (s s' : Section) (h : SecImage T s s') : dl s' = (T.sgn * T.len) • T.Q (dl s) := by
  simp only [dl, h.r1, h.r2, T.pt_sub]
  cases hf : T.flip
  · have hs : T.sgn = 1 := by simp [Iso.sgn, hf]
    simp [hs]
  · have hs : T.sgn = -1 := by simp [Iso.sgn, hf]
    simp only [hs, if_true, map_sub]
    module

theorem cross_dl_image (s s' : Section) (h : SecImage T s s') (k : ℝ) (a : V3) :
    cross (k • T.Q a) (dl s') = (k * T.len) • T.Q (cross a (dl s)) := by
  rw [dl_image T s s' h, cross_smul, smul_cross, T.cross_Q']
  simp only [smul_smul]
  congr 1
  linear_combination k * T.len * T.sgn_sq

theorem aMat_image (hS : ∀ i, SecImage T (S i) (S' (σ i))) (hF : FlowImage T σ F F') (i j : ι) :
    aMat S' F' (σ i) (σ j) = T.spd * T.len * aMat S F i j := by
  have hl := T.len_pos.ne'
  have hp := T.spd_pos
  simp only [aMat, hF.v, hF.u, vji_image T σ hS, (hS i).area, (hS i).cla, (hS i).un, dot_smul, T.dot_Q,
    nrm_smul_pos hp, T.nrm_Q, EmbeddingLike.apply_eq_iff_eq, cross_dl_image T _ _ (hS i),
    nrm_smul_pos (mul_pos hp T.len_pos)]
  split
  · field_simp
  · field_simp
    ring

theorem alphaLoc_image (hS : ∀ i, SecImage T (S i) (S' (σ i))) (hF : FlowImage T σ F F') (i : ι) :
    alphaLoc S' F' (σ i) = alphaLoc S F i := by
  have hp := T.spd_pos.ne'
  simp only [alphaLoc, hF.v, (hS i).un, (hS i).ua, smul_dot, T.dot_Q]
  rw [mul_div_mul_left _ _ hp]

theorem effFlap_image (hS : ∀ i, SecImage T (S i) (S' (σ i))) (hC : CtrlImage σ C C') (i : ι) :
    effFlap S' C' (σ i) = effFlap S C i := by
  simp only [effFlap, (hS i).flapEff, hC.delta, hC.eff]

theorem lerp_image (b : Bool) (s p q : ℝ) :
    lerp (if b then 1 - s else s) (if b then q else p) (if b then p else q) = lerp s p q := by
  cases b
  · simp
  · simp only [if_true, lerp]; ring

theorem lerp_image' (b : Bool) (s : ℝ) (l r : AfCoef) (f : AfCoef → ℝ) :
    lerp (if b then 1 - s else s) (f (if b then r else l)) (f (if b then l else r)) = lerp s (f l) (f r) := by
  cases b
  · simp
  · simp only [if_true, lerp]; ring

theorem clRhs_image (hS : ∀ i, SecImage T (S i) (S' (σ i))) (hF : FlowImage T σ F F')
    (hC : CtrlImage σ C C') (i : ι) : clRhs S' F' C' (σ i) = clRhs S F C i := by
  simp only [clRhs, alphaLoc_image T σ hS hF, effFlap_image T σ hS hC, (hS i).sp, (hS i).left, (hS i).right]
  exact lerp_image' T.flip (S i).sp (S i).left (S i).right
    (fun a => a.cla * (alphaLoc S F i + (effFlap S C i - a.al0)))

theorem bVec_image (hS : ∀ i, SecImage T (S i) (S' (σ i))) (hF : FlowImage T σ F F')
    (hC : CtrlImage σ C C') (i : ι) : bVec S' F' C' (σ i) = (T.spd * T.len) ^ 2 * bVec S F C i := by
  simp only [bVec, clRhs_image T σ hS hF hC, hF.v, nrm_smul_pos T.spd_pos, T.nrm_Q, (hS i).area]
  ring

theorem rhsDefined_image (hS : ∀ i, SecImage T (S i) (S' (σ i))) (hF : FlowImage T σ F F') :
    RhsDefined S' F' ↔ RhsDefined S F := by
  have hp := T.spd_pos.ne'
  simp only [RhsDefined, forall_equiv σ, hF.v, (hS _).ua, smul_dot, T.dot_Q, ne_eq, mul_eq_zero, hp, false_or]

theorem aMat_submatrix (hS : ∀ i, SecImage T (S i) (S' (σ i))) (hF : FlowImage T σ F F') :
    (aMat S' F').submatrix σ σ = (T.spd * T.len) • aMat S F := by
  ext i j
  simp [aMat_image T σ hS hF]

theorem det_image (hS : ∀ i, SecImage T (S i) (S' (σ i))) (hF : FlowImage T σ F F') :
    (aMat S' F').det = 0 ↔ (aMat S F).det = 0 := by
  have h := Matrix.det_submatrix_equiv_self σ (aMat S' F')
  rw [aMat_submatrix T σ hS hF, Matrix.det_smul] at h
  have hk : (T.spd * T.len) ^ Fintype.card ι ≠ 0 := pow_ne_zero _ (mul_pos T.spd_pos T.len_pos).ne'
  rw [← h]; simp [hk]

theorem gamma_image (hS : ∀ i, SecImage T (S i) (S' (σ i))) (hF : FlowImage T σ F F')
    (hC : CtrlImage σ C C') (hdet : (aMat S F).det ≠ 0) (i : ι) :
    ((aMat S' F')⁻¹.mulVec (bVec S' F' C')) (σ i) =
      T.spd * T.len * ((aMat S F)⁻¹.mulVec (bVec S F C)) i := by
  have hk : T.spd * T.len ≠ 0 := (mul_pos T.spd_pos T.len_pos).ne'
  have hdet' : (aMat S' F').det ≠ 0 := fun h => hdet ((det_image T σ hS hF).mp h)
  have h1 : (aMat S' F').mulVec ((aMat S' F')⁻¹.mulVec (bVec S' F' C')) = bVec S' F' C' := by
    rw [Matrix.mulVec_mulVec, Matrix.mul_nonsing_inv _ (isUnit_iff_ne_zero.mpr hdet'), Matrix.one_mulVec]
  generalize hg' : (aMat S' F')⁻¹.mulVec (bVec S' F' C') = g' at *
  have h2 : (aMat S F).mulVec (fun i => g' (σ i)) = (T.spd * T.len) • bVec S F C := by
    funext i
    have := congrFun h1 (σ i)
    rw [bVec_image T σ hS hF hC] at this
    simp only [Matrix.mulVec, dotProduct, Pi.smul_apply, smul_eq_mul] at this ⊢
    rw [← Equiv.sum_comp σ] at this
    simp only [aMat_image T σ hS hF, mul_assoc, ← Finset.mul_sum] at this
    have h3 : T.spd * T.len ≠ 0 := hk
    apply mul_left_cancel₀ h3
    linear_combination this
  have h4 : (fun i => g' (σ i)) = (aMat S F)⁻¹.mulVec ((T.spd * T.len) • bVec S F C) := by
    rw [← h2, Matrix.mulVec_mulVec, Matrix.nonsing_inv_mul _ (isUnit_iff_ne_zero.mpr hdet), Matrix.one_mulVec]
  have h5 := congrFun h4 i
  rw [Matrix.mulVec_smul] at h5
  simpa using h5

theorem vInd_image (hS : ∀ i, SecImage T (S i) (S' (σ i))) (hF : FlowImage T σ F F') {γ : ι → ℝ} {γ' : ι' → ℝ}
    (hγ : ∀ i, γ' (σ i) = T.spd * T.len * γ i) (i : ι) :
    vInd S' F' γ' (σ i) = T.spd • T.Q (vInd S F γ i) := by
  have hl := T.len_pos.ne'
  simp only [vInd, hF.v, hF.u, map_add, map_sum, smul_add, Finset.smul_sum, map_smul]
  congr 1
  rw [← Equiv.sum_comp σ]
  refine Finset.sum_congr rfl fun j _ => ?_
  rw [hγ, vji_image T σ hS]
  simp only [smul_smul]
  congr 1
  field_simp

theorem arctan2_smul {k : ℝ} (hk : 0 < k) (y x : ℝ) : arctan2 (k * y) (k * x) = arctan2 y x := by
  unfold arctan2
  have : (⟨k * x, k * y⟩ : ℂ) = (k : ℂ) * ⟨x, y⟩ := by
    apply Complex.ext <;> simp
  rw [this, Complex.arg_real_mul _ hk]

variable {vi : ι → V3} {vi' : ι' → V3}

theorem alphas_image (hS : ∀ i, SecImage T (S i) (S' (σ i))) (hv : ∀ i, vi' (σ i) = T.spd • T.Q (vi i)) (i : ι) :
    alphas S' vi' (σ i) = alphas S vi i := by
  simp only [alphas, hv, (hS i).un, (hS i).ua, smul_dot, T.dot_Q]
  exact arctan2_smul T.spd_pos _ _

theorem dynP_image (hF : FlowImage T σ F F') (i : ι) :
    dynP F' (σ i) = T.den * T.spd ^ 2 * dynP F i := by
  simp only [dynP, hF.v, hF.rho, nrm_smul_pos T.spd_pos, T.nrm_Q]; ring

theorem secForce_image (hS : ∀ i, SecImage T (S i) (S' (σ i))) (hF : FlowImage T σ F F') {γ : ι → ℝ} {γ' : ι' → ℝ}
    (hγ : ∀ i, γ' (σ i) = T.spd * T.len * γ i) (hv : ∀ i, vi' (σ i) = T.spd • T.Q (vi i)) (i : ι) :
    secForce S' F' γ' vi' (σ i) = (T.den * T.spd ^ 2 * T.len ^ 2) • T.Q (secForce S F γ vi i) := by
  simp only [secForce, hv, hF.rho, hγ, cross_dl_image T _ _ (hS i), map_smul, smul_smul]
  congr 1; ring

theorem secCl_image (hS : ∀ i, SecImage T (S i) (S' (σ i))) {al : ι → ℝ} {al' : ι' → ℝ}
    (ha : ∀ i, al' (σ i) = al i) (i : ι) : secCl S' al' (σ i) = secCl S al i := by
  simp only [secCl, ha, (hS i).sp, (hS i).left, (hS i).right]
  exact lerp_image' T.flip (S i).sp (S i).left (S i).right (fun a => a.cla * (al i - a.al0))

theorem secCd_image (hS : ∀ i, SecImage T (S i) (S' (σ i))) (hC : CtrlImage σ C C') {al : ι → ℝ} {al' : ι' → ℝ}
    (ha : ∀ i, al' (σ i) = al i) (i : ι) : secCd S' C' al' (σ i) = secCd S C al i := by
  simp only [secCd, secCl_image T σ hS ha, hC.delta, (hS i).sp, (hS i).left, (hS i).right]
  congr 1
  exact lerp_image' T.flip (S i).sp (S i).left (S i).right
    (fun a => a.cd0 + a.cd1 * secCl S al i + a.cd2 * secCl S al i * secCl S al i)

theorem secCm_image (hS : ∀ i, SecImage T (S i) (S' (σ i))) (hC : CtrlImage σ C C') {al : ι → ℝ} {al' : ι' → ℝ}
    (ha : ∀ i, al' (σ i) = al i) (i : ι) : secCm S' C' al' (σ i) = secCm S C al i := by
  simp only [secCm, ha, hC.delta, (hS i).cmd, (hS i).sp, (hS i).left, (hS i).right]
  congr 1
  exact lerp_image' T.flip (S i).sp (S i).left (S i).right (fun a => a.cml0 + a.cma * (al i - a.al0))

theorem secDrag_image (hS : ∀ i, SecImage T (S i) (S' (σ i))) (hF : FlowImage T σ F F') (hC : CtrlImage σ C C')
    (hv : ∀ i, vi' (σ i) = T.spd • T.Q (vi i)) (i : ι) :
    secDrag S' F' C' vi' (σ i) = (T.den * T.spd ^ 2 * T.len ^ 2) • T.Q (secDrag S F C vi i) := by
  have hp := T.spd_pos.ne'
  simp only [secDrag, secCd_image T σ hS hC (alphas_image T σ hS hv), hF.v, hF.rho, hv, (hS i).area,
    nrm_smul_pos T.spd_pos, T.nrm_Q, map_smul, smul_smul]
  congr 1
  simp only [one_div, mul_inv]
  field_simp

theorem cross_rcp_image (hS : ∀ i, SecImage T (S i) (S' (σ i))) (cg f : V3) (k : ℝ) (i : ι) :
    cross ((S' (σ i)).rcp - T.pt cg) (k • T.Q f) = (T.sgn * (k * T.len)) • T.Q (cross ((S i).rcp - cg) f) := by
  rw [(hS i).rcp, T.pt_sub, cross_smul, smul_cross, T.cross_Q']
  simp only [smul_smul]
  congr 1; ring

theorem secMoment_image (hS : ∀ i, SecImage T (S i) (S' (σ i))) (hF : FlowImage T σ F F') (hC : CtrlImage σ C C')
    {γ : ι → ℝ} {γ' : ι' → ℝ} (hγ : ∀ i, γ' (σ i) = T.spd * T.len * γ i)
    (hv : ∀ i, vi' (σ i) = T.spd • T.Q (vi i)) (cg : V3) (i : ι) :
    secMoment (T.pt cg) S' F' C' γ' vi' (σ i) =
      (T.sgn * (T.den * T.spd ^ 2 * T.len ^ 3)) • T.Q (secMoment cg S F C γ vi i) := by
  simp only [secMoment, secForce_image T σ hS hF hγ hv, dynP_image T σ hF,
    secCm_image T σ hS hC (alphas_image T σ hS hv), (hS i).ic2, (hS i).us, cross_rcp_image T σ hS,
    map_add, smul_add, map_smul, smul_smul]
  congr 2 <;> ring

theorem secMomentP_image (hS : ∀ i, SecImage T (S i) (S' (σ i))) (hF : FlowImage T σ F F') (hC : CtrlImage σ C C')
    (hv : ∀ i, vi' (σ i) = T.spd • T.Q (vi i)) (cg : V3) (i : ι) :
    secMomentP (T.pt cg) S' F' C' vi' (σ i) =
      (T.sgn * (T.den * T.spd ^ 2 * T.len ^ 3)) • T.Q (secMomentP cg S F C vi i) := by
  simp only [secMomentP, secDrag_image T σ hS hF hC hv, cross_rcp_image T σ hS]
  congr 1; ring

theorem mkLoads_F (u f m : V3) : (mkLoads u f m).F = f := rfl
theorem mkLoads_M (u f m : V3) : (mkLoads u f m).M = m := rfl
theorem add_F (a b : Loads) : (a.add b).F = a.F + b.F := rfl
theorem add_M (a b : Loads) : (a.add b).M = a.M + b.M := rfl

theorem solOf_image (hS : ∀ i, SecImage T (S i) (S' (σ i))) (hF : FlowImage T σ F F') (hC : CtrlImage σ C C')
    {γ : ι → ℝ} {γ' : ι' → ℝ} (hγ : ∀ i, γ' (σ i) = T.spd * T.len * γ i) (cg : V3) :
    SolImage T σ (solOf cg S F C γ) (solOf (T.pt cg) S' F' C' γ') := by
  have hv := vInd_image T σ hS hF hγ
  have ha := alphas_image T σ hS hv
  have hi : BodyLoadsImage T (solOf cg S F C γ).inviscid (solOf (T.pt cg) S' F' C' γ').inviscid := by
    constructor
    · simp only [solOf, mkLoads_F]
      rw [← Equiv.sum_comp σ, map_sum, Finset.smul_sum]
      exact Finset.sum_congr rfl fun i _ => secForce_image T σ hS hF hγ hv i
    · simp only [solOf, mkLoads_M]
      rw [← Equiv.sum_comp σ, map_sum, Finset.smul_sum]
      exact Finset.sum_congr rfl fun i _ => secMoment_image T σ hS hF hC hγ hv cg i
  have hvs : BodyLoadsImage T (solOf cg S F C γ).viscous (solOf (T.pt cg) S' F' C' γ').viscous := by
    constructor
    · simp only [solOf, mkLoads_F]
      rw [← Equiv.sum_comp σ, map_sum, Finset.smul_sum]
      exact Finset.sum_congr rfl fun i _ => secDrag_image T σ hS hF hC hv i
    · simp only [solOf, mkLoads_M]
      rw [← Equiv.sum_comp σ, map_sum, Finset.smul_sum]
      exact Finset.sum_congr rfl fun i _ => secMomentP_image T σ hS hF hC hv cg i
  exact {
    gamma := hγ
    vi := hv
    alpha := ha
    force := secForce_image T σ hS hF hγ hv
    fpar := secDrag_image T σ hS hF hC hv
    moment := secMoment_image T σ hS hF hC hγ hv cg
    cl := secCl_image T σ hS ha
    cd := secCd_image T σ hS hC ha
    cm := secCm_image T σ hS hC ha
    inviscid := hi
    viscous := hvs
    total := by
      constructor
      · show (Loads.add _ _).F = _ • T.Q (Loads.add _ _).F
        rw [add_F, add_F, map_add, smul_add]
        exact congrArg₂ _ hi.F hvs.F
      · show (Loads.add _ _).M = _ • T.Q (Loads.add _ _).M
        rw [add_M, add_M, map_add, smul_add]
        exact congrArg₂ _ hi.M hvs.M }

end

/-! ### wind axes -/

/-- The isometry maps the y axis to plus or minus itself. -/
theorem liftAxis_image (T : Sim) {τ : ℝ} (hy : T.Q ey = τ • ey) (hτ : |τ| = 1) (u : V3) :
    liftAxis (T.Q u) = (T.sgn * τ) • T.Q (liftAxis u) := by
  have hτ2 : τ * τ = 1 := by rw [← abs_mul_abs_self τ, hτ, one_mul]
  have h0 : ey = τ • T.Q ey := by rw [hy, smul_smul, hτ2, one_smul]
  have h1 : cross (T.Q u) ey = (T.sgn * τ) • T.Q (cross u ey) := by
    conv_lhs => rw [h0, cross_smul, T.cross_Q']
    rw [smul_smul, mul_comm]
  have h2 : |T.sgn * τ| = 1 := by
    rw [abs_mul, hτ, mul_one]; unfold Iso.sgn; split <;> norm_num
  rw [liftAxis, unit, h1, nrm_smul, h2, T.nrm_Q, one_mul, liftAxis, unit, map_smul, smul_smul, smul_smul, mul_comm]

theorem sideAxis_image (T : Sim) {τ : ℝ} (hy : T.Q ey = τ • ey) (hτ : |τ| = 1) (u : V3) :
    sideAxis (T.Q u) = τ • T.Q (sideAxis u) := by
  have h1 : cross (liftAxis (T.Q u)) (T.Q u) = τ • T.Q (cross (liftAxis u) u) := by
    rw [liftAxis_image T hy hτ, smul_cross, T.cross_Q', smul_smul]
    congr 1
    linear_combination τ * T.sgn_sq
  rw [sideAxis, unit, h1, nrm_smul, hτ, T.nrm_Q, one_mul, sideAxis, unit, map_smul, smul_smul, smul_smul, mul_comm]

theorem windAxesDefined_image (T : Sim) {τ : ℝ} (hy : T.Q ey = τ • ey) (hτ : |τ| = 1) (u : V3) :
    WindAxesDefined (T.Q u) ↔ WindAxesDefined u := by
  have hτ2 : τ * τ = 1 := by rw [← abs_mul_abs_self τ, hτ, one_mul]
  have h0 : ey = τ • T.Q ey := by rw [hy, smul_smul, hτ2, one_smul]
  have h1 : nrm (cross (T.Q u) ey) = nrm (cross u ey) := by
    conv_lhs => rw [h0, cross_smul, T.cross_Q', nrm_smul, nrm_smul, hτ, T.nrm_Q, one_mul]
    have : |T.sgn| = 1 := by unfold Iso.sgn; split <;> norm_num
    rw [this, one_mul]
  have h2 : nrm (cross (liftAxis (T.Q u)) (T.Q u)) = nrm (cross (liftAxis u) u) := by
    have : cross (liftAxis (T.Q u)) (T.Q u) = τ • T.Q (cross (liftAxis u) u) := by
      rw [liftAxis_image T hy hτ, smul_cross, T.cross_Q', smul_smul]
      congr 1
      linear_combination τ * T.sgn_sq
    rw [this, nrm_smul, hτ, one_mul, T.nrm_Q]
  unfold WindAxesDefined
  rw [h1, h2]

theorem rotateAero_image (T : Sim) {τ : ℝ} (hy : T.Q ey = τ • ey) (hτ : |τ| = 1) (k : ℝ) (u F : V3) :
    rotateAero (T.Q u) (k • T.Q F) =
      (T.sgn * τ * k * (rotateAero u F).1, k * (rotateAero u F).2.1, τ * k * (rotateAero u F).2.2) := by
  have hτ2 : τ * τ = 1 := by rw [← abs_mul_abs_self τ, hτ, one_mul]
  have hs2 := T.sgn_sq
  simp only [rotateAero, liftAxis_image T hy hτ, sideAxis_image T hy hτ, smul_dot, dot_smul, sub_dot, T.dot_Q]
  refine Prod.ext ?_ (Prod.ext ?_ ?_)
  · simp only; ring
  · rfl
  · simp only
    linear_combination (-(k * τ * dot F (liftAxis u) * dot (liftAxis u) (sideAxis u))) * (τ * τ * hs2 + hτ2)

end Verif
