import Mathlib.Analysis.SpecialFunctions.Complex.LogDeriv
import Mathlib.Analysis.SpecialFunctions.Complex.Analytic
import Mathlib.Analysis.SpecialFunctions.Trigonometric.ArctanDeriv
import Mathlib.Analysis.SpecialFunctions.Sqrt
import Mathlib.LinearAlgebra.Matrix.Adjugate
import Mathlib.LinearAlgebra.Matrix.NonsingularInverse
import Verif.Model.LLState

/-! Helper lemmas: classes of real functions closed under the operations of the solver (continuous or differentiable at a point). -/

namespace Verif
open V3 Topology

/-- a class of functions on `E`, regular at `e`, closed under the operations of the solver -/
structure Calc (E : Type*) [TopologicalSpace E] (e : E) where
  ok : (E → ℝ) → Prop
  cont : ∀ {f}, ok f → ContinuousAt f e
  const : ∀ c, ok fun _ => c
  add : ∀ {f g}, ok f → ok g → ok fun x => f x + g x
  mul : ∀ {f g}, ok f → ok g → ok fun x => f x * g x
  inv : ∀ {f}, ok f → f e ≠ 0 → ok fun x => (f x)⁻¹
  sqrt : ∀ {f}, ok f → f e ≠ 0 → ok fun x => Real.sqrt (f x)
  arctan : ∀ {f}, ok f → ok fun x => Real.arctan (f x)
  cos : ∀ {f}, ok f → ok fun x => Real.cos (f x)
  sin : ∀ {f}, ok f → ok fun x => Real.sin (f x)
  arg : ∀ {f g}, ok f → ok g → (0 < f e ∨ g e ≠ 0) → ok fun x => Complex.arg ⟨f x, g x⟩

theorem mk_eq (a b : ℝ) : (⟨a, b⟩ : ℂ) = a + b * Complex.I := by
  apply Complex.ext <;> simp

/-- continuous at `e` -/
def Calc.continuous {E : Type*} [TopologicalSpace E] (e : E) : Calc E e where
  ok f := ContinuousAt f e
  cont h := h
  const _ := continuousAt_const
  add h k := h.add k
  mul h k := h.mul k
  inv h k := h.inv₀ k
  sqrt h _ := h.sqrt
  arctan h := Real.continuous_arctan.continuousAt.comp h
  cos h := Real.continuous_cos.continuousAt.comp h
  sin h := Real.continuous_sin.continuousAt.comp h
  arg {f g} h k hs := by
    have hz : (⟨f e, g e⟩ : ℂ) ∈ Complex.slitPlane := Complex.mem_slitPlane_iff.2 hs
    have hc : ContinuousAt (fun x => (⟨f x, g x⟩ : ℂ)) e := by
      simp only [mk_eq]
      exact (Complex.continuous_ofReal.continuousAt.comp h).add ((Complex.continuous_ofReal.continuousAt.comp k).mul continuousAt_const)
    exact ContinuousAt.comp (g := Complex.arg) (Complex.continuousAt_arg hz) hc

/-- differentiable at `e` -/
def Calc.differentiable {E : Type*} [NormedAddCommGroup E] [NormedSpace ℝ E] (e : E) : Calc E e where
  ok f := DifferentiableAt ℝ f e
  cont h := h.continuousAt
  const _ := differentiableAt_const _
  add h k := h.fun_add k
  mul h k := h.fun_mul k
  inv h k := h.fun_inv k
  sqrt h k := h.sqrt k
  arctan h := h.arctan
  cos h := h.cos
  sin h := h.sin
  arg {f g} h k hs := by
    have hz : (⟨f e, g e⟩ : ℂ) ∈ Complex.slitPlane := Complex.mem_slitPlane_iff.2 hs
    have hc : DifferentiableAt ℝ (fun x => (⟨f x, g x⟩ : ℂ)) e := by
      simp only [mk_eq]
      exact (Complex.ofRealCLM.differentiableAt.comp e h).add ((Complex.ofRealCLM.differentiableAt.comp e k).mul_const _)
    have hl : DifferentiableAt ℝ Complex.log (⟨f e, g e⟩ : ℂ) := (Complex.hasStrictDerivAt_log hz).hasDerivAt.differentiableAt.restrictScalars ℝ
    have := Complex.imCLM.differentiableAt.comp e (hl.comp e hc)
    simpa [Function.comp_def, Complex.log_im] using this

namespace Calc
variable {E : Type*} [TopologicalSpace E] {e : E} (K : Calc E e)

theorem neg {f : E → ℝ} (h : K.ok f) : K.ok fun x => -f x := by
  have := K.mul (K.const (-1)) h
  simpa using this

theorem sub {f g : E → ℝ} (h : K.ok f) (k : K.ok g) : K.ok fun x => f x - g x := by
  have := K.add h (K.neg k)
  simpa [sub_eq_add_neg] using this

theorem div {f g : E → ℝ} (h : K.ok f) (k : K.ok g) (hg : g e ≠ 0) : K.ok fun x => f x / g x := by
  have := K.mul h (K.inv k hg)
  simpa [div_eq_mul_inv] using this

theorem sum {ι : Type*} (s : Finset ι) {f : ι → E → ℝ} (h : ∀ i ∈ s, K.ok (f i)) : K.ok fun x => ∑ i ∈ s, f i x := by
  classical
  induction s using Finset.induction_on with
  | empty => simpa using K.const 0
  | insert a s ha ih =>
    simp only [Finset.sum_insert ha]
    exact K.add (h a (Finset.mem_insert_self _ _)) (ih fun i hi => h i (Finset.mem_insert_of_mem hi))

theorem prod {ι : Type*} (s : Finset ι) {f : ι → E → ℝ} (h : ∀ i ∈ s, K.ok (f i)) : K.ok fun x => ∏ i ∈ s, f i x := by
  classical
  induction s using Finset.induction_on with
  | empty => simpa using K.const 1
  | insert a s ha ih =>
    simp only [Finset.prod_insert ha]
    exact K.mul (h a (Finset.mem_insert_self _ _)) (ih fun i hi => h i (Finset.mem_insert_of_mem hi))

/-- the components of a vector function -/
def okV (f : E → V3) : Prop := K.ok (fun x => (f x).x) ∧ K.ok (fun x => (f x).y) ∧ K.ok (fun x => (f x).z)

theorem constV (c : V3) : K.okV fun _ => c := ⟨K.const _, K.const _, K.const _⟩

theorem addV {f g : E → V3} (h : K.okV f) (k : K.okV g) : K.okV fun x => f x + g x :=
  ⟨K.add h.1 k.1, K.add h.2.1 k.2.1, K.add h.2.2 k.2.2⟩

theorem subV {f g : E → V3} (h : K.okV f) (k : K.okV g) : K.okV fun x => f x - g x :=
  ⟨K.sub h.1 k.1, K.sub h.2.1 k.2.1, K.sub h.2.2 k.2.2⟩

theorem smulV {f : E → ℝ} {g : E → V3} (h : K.ok f) (k : K.okV g) : K.okV fun x => f x • g x :=
  ⟨K.mul h k.1, K.mul h k.2.1, K.mul h k.2.2⟩

theorem crossV {f g : E → V3} (h : K.okV f) (k : K.okV g) : K.okV fun x => cross (f x) (g x) :=
  ⟨K.sub (K.mul h.2.1 k.2.2) (K.mul h.2.2 k.2.1), K.sub (K.mul h.2.2 k.1) (K.mul h.1 k.2.2),
   K.sub (K.mul h.1 k.2.1) (K.mul h.2.1 k.1)⟩

theorem dotV {f g : E → V3} (h : K.okV f) (k : K.okV g) : K.ok fun x => dot (f x) (g x) :=
  K.add (K.add (K.mul h.1 k.1) (K.mul h.2.1 k.2.1)) (K.mul h.2.2 k.2.2)

theorem nrmV {f : E → V3} (h : K.okV f) (h0 : nrm (f e) ≠ 0) : K.ok fun x => nrm (f x) :=
  K.sqrt (K.dotV h h) fun hc => h0 (by unfold nrm; rw [hc, Real.sqrt_zero])

theorem sumV {ι : Type*} (s : Finset ι) {f : ι → E → V3} (h : ∀ i ∈ s, K.okV (f i)) : K.okV fun x => ∑ i ∈ s, f i x := by
  classical
  induction s using Finset.induction_on with
  | empty => simpa using K.constV 0
  | insert a s ha ih =>
    simp only [Finset.sum_insert ha]
    exact K.addV (h a (Finset.mem_insert_self _ _)) (ih fun i hi => h i (Finset.mem_insert_of_mem hi))

theorem unitV {f : E → V3} (h : K.okV f) (h0 : nrm (f e) ≠ 0) : K.okV fun x => unit (f x) :=
  K.smulV (K.div (K.const 1) (K.nrmV h h0) h0) h

theorem eventually_ne {f : E → ℝ} (h : K.ok f) (h0 : f e ≠ 0) : ∀ᶠ x in 𝓝 e, f x ≠ 0 := (K.cont h).eventually_ne h0

theorem det {ι : Type*} [Fintype ι] [DecidableEq ι] {A : E → Matrix ι ι ℝ} (h : ∀ i j, K.ok fun x => A x i j) :
    K.ok fun x => (A x).det := by
  simp only [Matrix.det_apply']
  exact K.sum _ fun σ _ => K.mul (K.const _) (K.prod _ fun i _ => h _ _)

/-- the solution of a linear system -/
theorem solution {ι : Type*} [Fintype ι] [DecidableEq ι] {A : E → Matrix ι ι ℝ} {b : E → ι → ℝ} (h : ∀ i j, K.ok fun x => A x i j)
    (hb : ∀ i, K.ok fun x => b x i) (h0 : (A e).det ≠ 0) (i : ι) : K.ok fun x => ((A x)⁻¹.mulVec (b x)) i := by
  have hd : K.ok fun x => ((A x).det)⁻¹ := K.inv (K.det h) h0
  have hadj : ∀ i j, K.ok fun x => (A x).adjugate i j := by
    intro i j
    simp only [Matrix.adjugate_apply]
    refine K.det fun a b => ?_
    by_cases hab : a = j
    · subst hab; simp only [Matrix.updateRow_self]; exact K.const _
    · simp only [Matrix.updateRow_ne hab]; exact h a b
  have e1 : ∀ x, ((A x)⁻¹.mulVec (b x)) i = ∑ j, ((A x).det)⁻¹ * (A x).adjugate i j * b x j := by
    intro x
    simp only [Matrix.mulVec, dotProduct, Matrix.inv_def, Ring.inverse_eq_inv', Matrix.smul_apply, smul_eq_mul]
  simp only [e1]
  exact K.sum _ fun j _ => K.mul (K.mul hd (hadj i j)) (hb j)

end Calc

end Verif
