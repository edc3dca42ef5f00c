import Verif.Lemmas.Calc

/-! Helper lemmas: the linear solution depends regularly on the flow. -/

namespace Verif
open V3 Topology

variable {ι : Type*} [Fintype ι] [DecidableEq ι] {E : Type*} [TopologicalSpace E] {e : E}

/-- the air does not arrive from straight behind -/
structure SteadyAir (S : ι → Section) (vi : ι → V3) : Prop where
  ahead : ∀ i, 0 < dot (vi i) (S i).ua ∨ dot (vi i) (S i).un ≠ 0

/-- flow and controls depend regularly on a parameter -/
structure Calc.FlowOk (K : Calc E e) (S : ι → Section) (F : E → Flow ι) (C : E → Ctrl ι) : Prop where
  v : ∀ i, K.okV fun x => (F x).v i
  u : K.okV fun x => (F x).u
  rho : ∀ i, K.ok fun x => (F x).rho i
  delta : ∀ i, K.ok fun x => (C x).delta i
  abs : ∀ i, K.ok fun x => |(C x).delta i|
  eff : ∀ i, K.ok fun x => (C x).eff i
  edge : ∀ i, K.ok fun x => nrm (cross ((F x).v i) (dl (S i)))

namespace Calc
variable (K : Calc E e) {S : ι → Section} {F : E → Flow ι} {C : E → Ctrl ι}

theorem trail {u : E → V3} (hu : K.okV u) (r : V3) (h0 : nrm r * (nrm r - dot (u e) r) ≠ 0) : K.okV fun x => trailTerm (u x) r :=
  K.smulV (K.div (K.const 1) (K.mul (K.const _) (K.sub (K.const _) (K.dotV hu (K.constV r)))) h0) (K.crossV hu (K.constV r))

theorem vjiOk (h : K.FlowOk S F C) (hi : InfluenceDefined S (F e).u) (i j : ι) : K.okV fun x => vji S (F x).u i j := by
  unfold vji
  refine K.smulV (K.const _) (K.subV (K.addV (K.trail h.u _ (hi.2.1 i j)) ?_) (K.trail h.u _ (hi.1 i j)))
  exact K.constV _

theorem nrm_ne (hr : RhsDefined S (F e)) (i : ι) : nrm ((F e).v i) ≠ 0 := by
  intro hc
  apply hr i
  have h0 : dot ((F e).v i) ((F e).v i) = 0 := by
    have : 0 ≤ dot ((F e).v i) ((F e).v i) := by unfold dot; nlinarith [sq_nonneg ((F e).v i).x, sq_nonneg ((F e).v i).y, sq_nonneg ((F e).v i).z]
    unfold nrm at hc
    rwa [Real.sqrt_eq_zero this] at hc
  unfold dot at h0 ⊢
  have hx : ((F e).v i).x = 0 := by nlinarith [sq_nonneg ((F e).v i).x, sq_nonneg ((F e).v i).y, sq_nonneg ((F e).v i).z]
  have hy : ((F e).v i).y = 0 := by nlinarith [sq_nonneg ((F e).v i).x, sq_nonneg ((F e).v i).y, sq_nonneg ((F e).v i).z]
  have hz : ((F e).v i).z = 0 := by nlinarith [sq_nonneg ((F e).v i).x, sq_nonneg ((F e).v i).y, sq_nonneg ((F e).v i).z]
  rw [hx, hy, hz]; ring

theorem aMatOk (h : K.FlowOk S F C) (hi : InfluenceDefined S (F e).u) (hr : RhsDefined S (F e)) (i j : ι) :
    K.ok fun x => aMat S (F x) i j := by
  unfold aMat
  refine K.add (K.mul (K.mul (K.mul (K.neg (K.nrmV (h.v i) (nrm_ne hr i))) (K.const _)) (K.const _))
    (K.dotV (K.constV _) (K.vjiOk h hi i j))) ?_
  by_cases hij : i = j
  · simp only [if_pos hij]; exact K.mul (K.const _) (h.edge i)
  · simp only [if_neg hij]; exact K.const _

theorem lerpOk (s : ℝ) {a b : E → ℝ} (ha : K.ok a) (hb : K.ok b) : K.ok fun x => lerp s (a x) (b x) :=
  K.add ha (K.mul (K.const _) (K.sub hb ha))

theorem bVecOk (h : K.FlowOk S F C) (hr : RhsDefined S (F e)) (i : ι) : K.ok fun x => bVec S (F x) (C x) i := by
  have hn := K.nrmV (h.v i) (nrm_ne hr i)
  have hal : K.ok fun x => alphaLoc S (F x) i :=
    K.arctan (K.div (K.dotV (h.v i) (K.constV _)) (K.dotV (h.v i) (K.constV _)) (hr i))
  have hf : K.ok fun x => effFlap S (C x) i := K.mul (K.mul (K.const _) (h.eff i)) (h.delta i)
  exact K.mul (K.mul (K.mul hn hn) (K.const _)) (K.lerpOk _ (K.mul (K.const _) (K.add hal (K.sub hf (K.const _))))
    (K.mul (K.const _) (K.add hal (K.sub hf (K.const _)))))

/-- regularity of the entries of a result group -/
structure LoadsOk (L : E → Loads) : Prop where
  FL : K.ok fun x => (L x).FL
  FD : K.ok fun x => (L x).FD
  FS : K.ok fun x => (L x).FS
  FX : K.ok fun x => (L x).FX
  FY : K.ok fun x => (L x).FY
  FZ : K.ok fun x => (L x).FZ
  MX : K.ok fun x => (L x).MX
  MY : K.ok fun x => (L x).MY
  MZ : K.ok fun x => (L x).MZ

theorem liftOk {u : E → V3} (hu : K.okV u) (hw : WindAxesDefined (u e)) : K.okV fun x => liftAxis (u x) :=
  K.unitV (K.crossV hu (K.constV _)) hw.1

theorem loadsOk {u Fo M : E → V3} (hu : K.okV u) (hw : WindAxesDefined (u e)) (hF : K.okV Fo) (hM : K.okV M) :
    K.LoadsOk fun x => mkLoads (u x) (Fo x) (M x) := by
  have hl := K.liftOk hu hw
  have hD := K.dotV hF hu
  have hL := K.dotV hF hl
  have hs : K.okV fun x => sideAxis (u x) := K.unitV (K.crossV hl hu) hw.2
  exact ⟨hL, hD, K.dotV (K.subV (K.subV hF (K.smulV hL hl)) (K.smulV hD hu)) hs, hF.1, hF.2.1, hF.2.2, hM.1, hM.2.1, hM.2.2⟩

variable {K} in
theorem LoadsOk.add {L L' : E → Loads} (h : K.LoadsOk L) (h' : K.LoadsOk L') : K.LoadsOk fun x => (L x).add (L' x) :=
  ⟨K.add h.FL h'.FL, K.add h.FD h'.FD, K.add h.FS h'.FS, K.add h.FX h'.FX, K.add h.FY h'.FY, K.add h.FZ h'.FZ, K.add h.MX h'.MX,
   K.add h.MY h'.MY, K.add h.MZ h'.MZ⟩

/-- regularity of all results -/
structure SolOk (R : E → Sol ι) : Prop where
  gamma : ∀ i, K.ok fun x => (R x).gamma i
  vi : ∀ i, K.okV fun x => (R x).vi i
  alpha : ∀ i, K.ok fun x => (R x).alpha i
  force : ∀ i, K.okV fun x => (R x).force i
  fpar : ∀ i, K.okV fun x => (R x).fpar i
  moment : ∀ i, K.okV fun x => (R x).moment i
  cl : ∀ i, K.ok fun x => (R x).cl i
  cd : ∀ i, K.ok fun x => (R x).cd i
  cm : ∀ i, K.ok fun x => (R x).cm i
  inviscid : K.LoadsOk fun x => (R x).inviscid
  viscous : K.LoadsOk fun x => (R x).viscous
  total : K.LoadsOk fun x => (R x).total

theorem solveOk (cg : V3) (h : K.FlowOk S F C) {R : Sol ι} (hR : solveLinear cg S (F e) (C e) = .ok R) (hst : SteadyAir S R.vi) :
    (∀ᶠ x in 𝓝 e, solveLinear cg S (F x) (C x) = .ok (solOf cg S (F x) (C x) ((aMat S (F x))⁻¹.mulVec (bVec S (F x) (C x))))) ∧
    solOf cg S (F e) (C e) ((aMat S (F e))⁻¹.mulVec (bVec S (F e) (C e))) = R ∧
    K.SolOk fun x => solOf cg S (F x) (C x) ((aMat S (F x))⁻¹.mulVec (bVec S (F x) (C x))) := by
  unfold solveLinear at hR
  split_ifs at hR with h1 h2
  dsimp only at hR
  split_ifs at hR with h3
  obtain ⟨hi, hr⟩ := h1
  have hA : ∀ i j, K.ok fun x => aMat S (F x) i j := K.aMatOk h hi hr
  have hb : ∀ i, K.ok fun x => bVec S (F x) (C x) i := K.bVecOk h hr
  have hg : ∀ i, K.ok fun x => ((aMat S (F x))⁻¹.mulVec (bVec S (F x) (C x))) i := K.solution hA hb h2
  set γ : E → ι → ℝ := fun x => (aMat S (F x))⁻¹.mulVec (bVec S (F x) (C x)) with hγ
  have hRe : solOf cg S (F e) (C e) (γ e) = R := Except.ok.inj hR
  have hv : ∀ i, K.okV fun x => vInd S (F x) (γ x) i := fun i =>
    K.addV (h.v i) (K.sumV _ fun j _ => K.smulV (hg j) (K.vjiOk h hi i j))
  have hvi : R.vi = vInd S (F e) (γ e) := by rw [← hRe]; rfl
  rw [hvi] at hst
  have hal : ∀ i, K.ok fun x => alphas S (vInd S (F x) (γ x)) i := fun i =>
    K.arg (K.dotV (hv i) (K.constV _)) (K.dotV (hv i) (K.constV _)) (hst.ahead i)
  have hfo : ∀ i, K.okV fun x => secForce S (F x) (γ x) (vInd S (F x) (γ x)) i := fun i =>
    K.smulV (K.mul (h.rho i) (hg i)) (K.crossV (hv i) (K.constV _))
  have hcl : ∀ i, K.ok fun x => secCl S (alphas S (vInd S (F x) (γ x))) i := fun i =>
    K.lerpOk _ (K.mul (K.const _) (K.sub (hal i) (K.const _))) (K.mul (K.const _) (K.sub (hal i) (K.const _)))
  have hcd : ∀ i, K.ok fun x => secCd S (C x) (alphas S (vInd S (F x) (γ x))) i := fun i =>
    K.add (K.lerpOk _ (K.add (K.add (K.const _) (K.mul (K.const _) (hcl i))) (K.mul (K.mul (K.const _) (hcl i)) (hcl i)))
      (K.add (K.add (K.const _) (K.mul (K.const _) (hcl i))) (K.mul (K.mul (K.const _) (hcl i)) (hcl i))))
      (K.div (K.mul (K.mul (K.const _) (h.abs i)) (K.const _)) (K.const _) Real.pi_ne_zero)
  have hcm : ∀ i, K.ok fun x => secCm S (C x) (alphas S (vInd S (F x) (γ x))) i := fun i =>
    K.add (K.lerpOk _ (K.add (K.const _) (K.mul (K.const _) (K.sub (hal i) (K.const _))))
      (K.add (K.const _) (K.mul (K.const _) (K.sub (hal i) (K.const _))))) (K.mul (h.delta i) (K.const _))
  have hn := fun i => K.nrmV (h.v i) (nrm_ne hr i)
  have hfp : ∀ i, K.okV fun x => secDrag S (F x) (C x) (vInd S (F x) (γ x)) i := fun i =>
    K.smulV (K.mul (K.mul (K.mul (K.mul (K.mul (K.const _) (h.rho i)) (hn i)) (hn i)) (hcd i)) (K.const _))
      (K.smulV (K.div (K.const 1) (K.nrmV (hv i) (h3.1 i)) (h3.1 i)) (hv i))
  have hmo : ∀ i, K.okV fun x => secMoment cg S (F x) (C x) (γ x) (vInd S (F x) (γ x)) i := fun i =>
    K.addV (K.smulV (K.mul (K.mul (K.neg (K.mul (K.mul (K.mul (K.const _) (h.rho i)) (hn i)) (hn i))) (hcm i)) (K.const _)) (K.constV _))
      (K.crossV (K.constV _) (hfo i))
  have hmp : ∀ i, K.okV fun x => secMomentP cg S (F x) (C x) (vInd S (F x) (γ x)) i := fun i => K.crossV (K.constV _) (hfp i)
  have hinv := K.loadsOk h.u h3.2 (K.sumV Finset.univ fun i _ => hfo i) (K.sumV Finset.univ fun i _ => hmo i)
  have hvis := K.loadsOk h.u h3.2 (K.sumV Finset.univ fun i _ => hfp i) (K.sumV Finset.univ fun i _ => hmp i)
  refine ⟨?_, hRe, ⟨hg, hv, hal, hfo, hfp, hmo, hcl, hcd, hcm, hinv, hvis, hinv.add hvis⟩⟩
  -- no division by zero and no singular matrix nearby
  have k1 : ∀ᶠ x in 𝓝 e, InfluenceDefined S (F x).u := by
    unfold InfluenceDefined
    refine (Filter.eventually_all.2 fun i => Filter.eventually_all.2 fun j => ?_).and
      ((Filter.eventually_all.2 fun i => Filter.eventually_all.2 fun j => ?_).and (Filter.Eventually.of_forall fun x => hi.2.2))
    · exact K.eventually_ne (K.mul (K.const _) (K.sub (K.const _) (K.dotV h.u (K.constV _)))) (hi.1 i j)
    · exact K.eventually_ne (K.mul (K.const _) (K.sub (K.const _) (K.dotV h.u (K.constV _)))) (hi.2.1 i j)
  have k2 : ∀ᶠ x in 𝓝 e, RhsDefined S (F x) :=
    Filter.eventually_all.2 fun i => K.eventually_ne (K.dotV (h.v i) (K.constV _)) (hr i)
  have k3 : ∀ᶠ x in 𝓝 e, (aMat S (F x)).det ≠ 0 := K.eventually_ne (K.det hA) h2
  have k4 : ∀ᶠ x in 𝓝 e, PostDefined (F x) (vInd S (F x) (γ x)) := by
    unfold PostDefined WindAxesDefined
    have hl := K.liftOk h.u h3.2
    refine (Filter.eventually_all.2 fun i => K.eventually_ne (K.nrmV (hv i) (h3.1 i)) (h3.1 i)).and
      ((K.eventually_ne (K.nrmV (K.crossV h.u (K.constV _)) h3.2.1) h3.2.1).and
        (K.eventually_ne (K.nrmV (K.crossV hl h.u) h3.2.2) h3.2.2))
  filter_upwards [k1, k2, k3, k4] with x q1 q2 q3 q4
  unfold solveLinear
  rw [if_neg (not_not.2 ⟨q1, q2⟩), if_neg q3, if_neg (not_not.2 q4)]

end Calc

end Verif
