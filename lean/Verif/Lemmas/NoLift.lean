import Verif.Spec.NoLift
import Verif.Lemmas.LLKernel

/-! Helper lemmas: sections without lift slope. -/

set_option linter.unusedSectionVars false

namespace Verif
open V3

variable {ι ι' : Type*} [Fintype ι] [DecidableEq ι] [Fintype ι'] [DecidableEq ι']

theorem solveLinear_intro {cg : V3} {S : ι → Section} {F : Flow ι} {C : Ctrl ι} {γ : ι → ℝ} (hi : InfluenceDefined S F.u)
    (hr : RhsDefined S F) (hd : (aMat S F).det ≠ 0) (hp : PostDefined F (vInd S F γ)) (he : (aMat S F).mulVec γ = bVec S F C) :
    solveLinear cg S F C = .ok (solOf cg S F C γ) := by
  have hg : (aMat S F)⁻¹.mulVec (bVec S F C) = γ := by
    rw [← he, Matrix.mulVec_mulVec, Matrix.nonsing_inv_mul _ (isUnit_iff_ne_zero.mpr hd), Matrix.one_mulVec]
  unfold solveLinear
  rw [if_neg (not_not.mpr ⟨hi, hr⟩), if_neg hd]
  rw [hg]
  simp only
  rw [if_neg (not_not.mpr hp)]

/-- the section has no lift slope -/
structure Section.Flat (s : Section) : Prop where
  cla : s.cla = 0
  left : s.left.cla = 0
  right : s.right.cla = 0

def Flow.sub (f : ι → ι') (F : Flow ι') : Flow ι := ⟨fun i => F.v (f i), F.u, fun i => F.rho (f i)⟩
def Ctrl.sub (f : ι → ι') (C : Ctrl ι') : Ctrl ι := ⟨fun i => C.delta (f i), fun i => C.eff (f i)⟩

theorem mem_added {f : ι → ι'} {j : ι'} : j ∈ added f ↔ j ∉ Set.range f := by
  unfold added; simp

theorem sum_split {M : Type*} [AddCommMonoid M] {f : ι → ι'} (hf : Function.Injective f) (g : ι' → M) :
    ∑ j, g j = ∑ i, g (f i) + ∑ j ∈ added f, g j := by
  classical
  have h1 : ∑ i, g (f i) = ∑ j ∈ Finset.univ.filter (· ∈ Set.range f), g j := by
    have : (Finset.univ.filter (· ∈ Set.range f)) = Finset.univ.map ⟨f, hf⟩ := by
      ext j; simp
    rw [this, Finset.sum_map]
    rfl
  rw [h1, show added f = Finset.univ.filter (fun j => ¬ j ∈ Set.range f) by unfold added; congr,
    Finset.sum_filter_add_sum_filter_not]

section
variable {f : ι → ι'} (hf : Function.Injective f) {S : ι → Section} {S' : ι' → Section} (hS : ∀ i, S' (f i) = S i)
  (h0 : ∀ j ∈ added f, (S' j).Flat)
include hf hS

theorem vji_sub (u : V3) (i j : ι) : vji S' u (f i) (f j) = vji S u i j := by
  unfold vji
  simp only [hS, hf.eq_iff]

theorem aMat_sub (F : Flow ι') (i j : ι) : aMat S' F (f i) (f j) = aMat S (F.sub f) i j := by
  unfold aMat
  rw [show (F.sub f).u = F.u from rfl, vji_sub hf hS, hS]
  simp only [hf.eq_iff, Flow.sub]

omit hf in
theorem bVec_sub (F : Flow ι') (C : Ctrl ι') (i : ι) : bVec S' F C (f i) = bVec S (F.sub f) (C.sub f) i := by
  unfold bVec clRhs alphaLoc effFlap Flow.sub Ctrl.sub
  simp only [hS]

include h0
omit hf hS

theorem aMat_flat (F : Flow ι') {j : ι'} (hj : j ∈ added f) (k : ι') :
    aMat S' F j k = if j = k then 2 * nrm (cross (F.v j) (dl (S' j))) else 0 := by
  unfold aMat
  rw [(h0 j hj).cla]
  simp

theorem bVec_flat (F : Flow ι') (C : Ctrl ι') {j : ι'} (hj : j ∈ added f) : bVec S' F C j = 0 := by
  unfold bVec clRhs lerp
  rw [(h0 j hj).left, (h0 j hj).right]
  simp

theorem mulVec_flat (F : Flow ι') {j : ι'} (hj : j ∈ added f) (x : ι' → ℝ) :
    (aMat S' F).mulVec x j = 2 * nrm (cross (F.v j) (dl (S' j))) * x j := by
  unfold Matrix.mulVec dotProduct
  simp only [aMat_flat h0 F hj]
  simp

theorem edge_ne (F : Flow ι') (hd : (aMat S' F).det ≠ 0) {j : ι'} (hj : j ∈ added f) :
    2 * nrm (cross (F.v j) (dl (S' j))) ≠ 0 := by
  intro hc
  refine hd (Matrix.det_eq_zero_of_row_eq_zero j fun k => ?_)
  rw [aMat_flat h0 F hj, hc]
  simp

include hf hS

theorem mulVec_sub (F : Flow ι') {x : ι' → ℝ} (hx : ∀ j ∈ added f, x j = 0) (i : ι) :
    (aMat S' F).mulVec x (f i) = (aMat S (F.sub f)).mulVec (fun i => x (f i)) i := by
  unfold Matrix.mulVec dotProduct
  rw [sum_split hf, Finset.sum_eq_zero (s := added f) (fun j hj => by rw [hx j hj, mul_zero]), add_zero]
  simp only [aMat_sub hf hS]

theorem det_sub (F : Flow ι') (hd : (aMat S' F).det ≠ 0) : (aMat S (F.sub f)).det ≠ 0 := by
  intro hc
  obtain ⟨v, hv, hz⟩ := Matrix.exists_mulVec_eq_zero_iff.2 hc
  refine hd (Matrix.exists_mulVec_eq_zero_iff.1 ⟨Function.extend f v 0, ?_, ?_⟩)
  · intro hx
    apply hv
    funext i
    have := congrFun hx (f i)
    rwa [hf.extend_apply] at this
  · have hx : ∀ j ∈ added f, Function.extend f v 0 j = 0 := fun j hj => Function.extend_apply' _ _ _ (mem_added.1 hj)
    funext j
    by_cases hj : j ∈ added f
    · rw [mulVec_flat h0 F hj, hx j hj, mul_zero]; rfl
    · rw [mem_added, not_not] at hj
      obtain ⟨i, rfl⟩ := hj
      rw [mulVec_sub hf hS h0 F hx]
      simp only [hf.extend_apply]
      exact congrFun hz i

/-- conversely, sections without lift slope that the wind crosses leave the system regular -/
theorem det_super (F : Flow ι') (he : ∀ j ∈ added f, nrm (cross (F.v j) (dl (S' j))) ≠ 0) (hd : (aMat S (F.sub f)).det ≠ 0) :
    (aMat S' F).det ≠ 0 := by
  intro hc
  obtain ⟨v, hv, hz⟩ := Matrix.exists_mulVec_eq_zero_iff.2 hc
  have hx : ∀ j ∈ added f, v j = 0 := by
    intro j hj
    have := congrFun hz j
    rw [mulVec_flat h0 F hj] at this
    rcases mul_eq_zero.1 this with h | h
    · exact absurd h (mul_ne_zero two_ne_zero (he j hj))
    · exact h
  refine hd (Matrix.exists_mulVec_eq_zero_iff.1 ⟨fun i => v (f i), ?_, ?_⟩)
  · intro hz'
    apply hv
    funext j
    by_cases hj : j ∈ added f
    · exact hx j hj
    · rw [mem_added, not_not] at hj
      obtain ⟨i, rfl⟩ := hj
      exact congrFun hz' i
  · funext i
    rw [← mulVec_sub hf hS h0 F hx]
    exact congrFun hz (f i)

theorem vInd_sub (F : Flow ι') {γ : ι' → ℝ} (hx : ∀ j ∈ added f, γ j = 0) (i : ι) :
    vInd S' F γ (f i) = vInd S (F.sub f) (fun i => γ (f i)) i := by
  unfold vInd
  rw [sum_split hf, Finset.sum_eq_zero (s := added f) (fun j hj => by rw [hx j hj, zero_smul]), add_zero]
  simp only [show (F.sub f).u = F.u from rfl, vji_sub hf hS]
  rfl

theorem solOf_sub (cg : V3) (F : Flow ι') (C : Ctrl ι') {γ : ι' → ℝ} (hx : ∀ j ∈ added f, γ j = 0) :
    OnlyDrag cg S' f (solOf cg S (F.sub f) (C.sub f) fun i => γ (f i)) (solOf cg S' F C γ) := by
  have hv := vInd_sub hf hS h0 F hx
  have hal : ∀ i, alphas S' (vInd S' F γ) (f i) = alphas S (vInd S (F.sub f) fun i => γ (f i)) i := by
    intro i; unfold alphas; rw [hv, hS]
  have hcl : ∀ i, secCl S' (alphas S' (vInd S' F γ)) (f i) = secCl S (alphas S (vInd S (F.sub f) fun i => γ (f i))) i := by
    intro i; unfold secCl; rw [hal, hS]
  have hcd : ∀ i, secCd S' C (alphas S' (vInd S' F γ)) (f i) =
      secCd S (C.sub f) (alphas S (vInd S (F.sub f) fun i => γ (f i))) i := by
    intro i; unfold secCd; rw [hcl, hS]; rfl
  have hcm : ∀ i, secCm S' C (alphas S' (vInd S' F γ)) (f i) =
      secCm S (C.sub f) (alphas S (vInd S (F.sub f) fun i => γ (f i))) i := by
    intro i; unfold secCm; rw [hal, hS]; rfl
  have hfo : ∀ i, secForce S' F γ (vInd S' F γ) (f i) =
      secForce S (F.sub f) (fun i => γ (f i)) (vInd S (F.sub f) fun i => γ (f i)) i := by
    intro i; unfold secForce; rw [hv, hS]; rfl
  have hdr : ∀ i, secDrag S' F C (vInd S' F γ) (f i) =
      secDrag S (F.sub f) (C.sub f) (vInd S (F.sub f) fun i => γ (f i)) i := by
    intro i; unfold secDrag; rw [hcd, hv, hS]; rfl
  have hmo : ∀ i, secMoment cg S' F C γ (vInd S' F γ) (f i) =
      secMoment cg S (F.sub f) (C.sub f) (fun i => γ (f i)) (vInd S (F.sub f) fun i => γ (f i)) i := by
    intro i; unfold secMoment; rw [hcm, hfo, hS]; rfl
  have hmp : ∀ i, secMomentP cg S' F C (vInd S' F γ) (f i) =
      secMomentP cg S (F.sub f) (C.sub f) (vInd S (F.sub f) fun i => γ (f i)) i := by
    intro i; unfold secMomentP; rw [hdr, hS]
  have z : ∀ j ∈ added f, secForce S' F γ (vInd S' F γ) j = 0 := by
    intro j hj; unfold secForce; rw [hx j hj, mul_zero, zero_smul]
  have eF : ∑ j, secForce S' F γ (vInd S' F γ) j =
      ∑ i, secForce S (F.sub f) (fun i => γ (f i)) (vInd S (F.sub f) fun i => γ (f i)) i := by
    rw [sum_split hf, Finset.sum_eq_zero z, add_zero]
    exact Finset.sum_congr rfl fun i _ => hfo i
  have eM : ∑ j, secMoment cg S' F C γ (vInd S' F γ) j =
      ∑ i, secMoment cg S (F.sub f) (C.sub f) (fun i => γ (f i)) (vInd S (F.sub f) fun i => γ (f i)) i +
        ∑ j ∈ added f, secMoment cg S' F C γ (vInd S' F γ) j := by
    rw [sum_split hf]
    simp only [hmo]
  have eD : ∑ j, secDrag S' F C (vInd S' F γ) j =
      ∑ i, secDrag S (F.sub f) (C.sub f) (vInd S (F.sub f) fun i => γ (f i)) i +
        ∑ j ∈ added f, secDrag S' F C (vInd S' F γ) j := by
    rw [sum_split hf]
    simp only [hdr]
  have eP : ∑ j, secMomentP cg S' F C (vInd S' F γ) j =
      ∑ i, secMomentP cg S (F.sub f) (C.sub f) (vInd S (F.sub f) fun i => γ (f i)) i +
        ∑ j ∈ added f, secMomentP cg S' F C (vInd S' F γ) j := by
    rw [sum_split hf]
    simp only [hmp]
  have gF : ∀ u A M, (mkLoads u A M).F = A := fun u A M => rfl
  have gM : ∀ u A M, (mkLoads u A M).M = M := fun u A M => rfl
  have aF : ∀ a b : Loads, (a.add b).F = a.F + b.F := fun a b => rfl
  have aM : ∀ a b : Loads, (a.add b).M = a.M + b.M := fun a b => rfl
  refine ⟨fun _ => rfl, hv, hal, hcl, hcd, hcm, hfo, hdr, hmo, ?_, ?_, ?_, ?_, ?_, ?_, ?_⟩
  · intro j hj
    refine ⟨hx j hj, z j hj, ?_⟩
    show secCl S' _ j = 0
    unfold secCl lerp
    rw [(h0 j hj).left, (h0 j hj).right]
    simp
  · intro j _
    refine ⟨0.5 * F.rho j * nrm (F.v j) * nrm (F.v j) * secCd S' C (alphas S' (vInd S' F γ)) j * (S' j).area *
      (1 / nrm (vInd S' F γ j)), ?_⟩
    show secDrag S' F C (vInd S' F γ) j = _ • vInd S' F γ j
    unfold secDrag
    rw [smul_smul]
  · intro j hj
    refine ⟨-(dynP F j) * secCm S' C (alphas S' (vInd S' F γ)) j * (S' j).ic2, ?_⟩
    show secMoment cg S' F C γ (vInd S' F γ) j = _
    unfold secMoment
    rw [z j hj, cross_zero, add_zero]
  · unfold solOf
    simp only [eF, gF]
    exact ⟨rfl, rfl, rfl, trivial⟩
  · unfold solOf
    simp only [gM, eM]
  · unfold solOf
    simp only [gF, aF, eF, eD, add_assoc]
  · unfold solOf
    simp only [gM, aM, eM, eP, Finset.sum_add_distrib]
    have : ∀ j, secMomentP cg S' F C (vInd S' F γ) j = cross ((S' j).rcp - cg) (secDrag S' F C (vInd S' F γ) j) := fun _ => rfl
    simp only [this]
    abel

theorem solveLinear_sub {cg : V3} {F : Flow ι'} {C : Ctrl ι'} {R' : Sol ι'} (h : solveLinear cg S' F C = .ok R') :
    ∃ R, solveLinear cg S (F.sub f) (C.sub f) = .ok R ∧ OnlyDrag cg S' f R R' := by
  obtain ⟨hi, hr, hd, hp, he, hR⟩ := solveLinear_ok h
  have hx : ∀ j ∈ added f, R'.gamma j = 0 := by
    intro j hj
    have := congrFun he j
    rw [mulVec_flat h0 F hj, bVec_flat h0 F C hj] at this
    exact (mul_eq_zero.1 this).resolve_left (edge_ne h0 F hd hj)
  refine ⟨_, solveLinear_intro (γ := fun i => R'.gamma (f i)) ?_ ?_ (det_sub hf hS h0 F hd) ?_ ?_, ?_⟩
  · refine ⟨fun i j => ?_, fun i j => ?_, fun i j hij => ?_⟩
    · have := hi.1 (f i) (f j); rwa [hS, hS] at this
    · have := hi.2.1 (f i) (f j); rwa [hS, hS] at this
    · have := hi.2.2 (f i) (f j) (hf.ne hij); rwa [hS, hS] at this
  · intro i
    have := hr (f i); rwa [hS] at this
  · refine ⟨fun i => ?_, hp.2⟩
    rw [← vInd_sub hf hS h0 F hx]
    exact hp.1 (f i)
  · funext i
    rw [← mulVec_sub hf hS h0 F hx, he, bVec_sub hS]
  · have := solOf_sub hf hS h0 cg F C hx
    rwa [← hR] at this

/-- and if the sections without lift slope are met by the wind, off all vortices, the solve succeeds -/
theorem solveLinear_super {cg : V3} {F : Flow ι'} {C : Ctrl ι'} {R : Sol ι} (h : solveLinear cg S (F.sub f) (C.sub f) = .ok R)
    (hi : InfluenceDefined S' F.u) (hr : RhsDefined S' F) (he : ∀ j ∈ added f, nrm (cross (F.v j) (dl (S' j))) ≠ 0)
    (hp : ∀ j ∈ added f, vInd S' F (Function.extend f R.gamma 0) j ≠ 0) :
    ∃ R', solveLinear cg S' F C = .ok R' := by
  obtain ⟨_, _, hd, hpo, heq, _⟩ := solveLinear_ok h
  have hx : ∀ j ∈ added f, Function.extend f R.gamma 0 j = 0 := fun j hj => Function.extend_apply' _ _ _ (mem_added.1 hj)
  have hg : (fun i => Function.extend f R.gamma 0 (f i)) = R.gamma := by funext i; rw [hf.extend_apply]
  refine ⟨_, solveLinear_intro (γ := Function.extend f R.gamma 0) hi hr (det_super hf hS h0 F he hd) ⟨fun j => ?_, hpo.2⟩ ?_⟩
  · by_cases hj : j ∈ added f
    · exact (nrm_pos (hp j hj)).ne'
    · rw [mem_added, not_not] at hj
      obtain ⟨i, rfl⟩ := hj
      rw [vInd_sub hf hS h0 F hx, hg]
      exact hpo.1 i
  · funext j
    by_cases hj : j ∈ added f
    · rw [mulVec_flat h0 F hj, hx j hj, mul_zero, bVec_flat h0 F C hj]
    · rw [mem_added, not_not] at hj
      obtain ⟨i, rfl⟩ := hj
      rw [mulVec_sub hf hS h0 F hx, hg, heq, bVec_sub hS]

end

end Verif
